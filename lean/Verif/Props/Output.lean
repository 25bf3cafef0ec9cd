import Verif.Lemmas.Live
import Verif.Props.Examples

/-!
# Console output (C43)
-/

set_option linter.unusedSectionVars false

namespace LCQ
open Scalar

variable {α : Type} [Scalar α]

/-- outer and inner counter of the printed iteration lines -/
def iterLines : List (Ev α) → List (Int × Int)
  | [] => []
  | .iter o i _ _ _ _ _ :: l => (o, i) :: iterLines l
  | _ :: l => iterLines l

/-- the printed solution lines -/
def solLines : List (Ev α) → List AlgStat
  | [] => []
  | .solution t :: l => t :: solLines l
  | _ :: l => solLines l

/-- the printed error messages -/
def msgLines : List (Ev α) → List RV
  | [] => []
  | .msg r :: l => r :: msgLines l
  | _ :: l => msgLines l

theorem iterLines_append (a b : List (Ev α)) : iterLines (a ++ b) = iterLines a ++ iterLines b := by
  induction a with
  | nil => rfl
  | cons v a ih => cases v <;> simp [iterLines, ih]

theorem solLines_append (a b : List (Ev α)) : solLines (a ++ b) = solLines a ++ solLines b := by
  induction a with
  | nil => rfl
  | cons v a ih => cases v <;> simp [solLines, ih]

theorem msgLines_append (a b : List (Ev α)) : msgLines (a ++ b) = msgLines a ++ msgLines b := by
  induction a with
  | nil => rfl
  | cons v a ih => cases v <;> simp [msgLines, ih]

/-- what is printed in a pass: `k` outer counter, `i` inner counter at its head -/
def PassOut (level k i : Int) (l : List (Ev α)) : Prop :=
  (level = 0 ∧ l = []) ∨
  (level = 1 ∧ 0 < i ∧ l = []) ∨
  (level ≠ 0 ∧ ¬ (level = 1 ∧ 0 < i) ∧ iterLines l = [(k, i)] ∧ solLines l = [] ∧ msgLines l = [])

theorem printIteration_out {d : Data α} {s s' : St α} {k i : Int} (hk : s.outer = some k)
    (hi : s.inner = some i) (h : printIteration d s = .ok s') :
    ∃ l, s'.out = s.out ++ l ∧ PassOut d.opts.printLevel k i l := by
  obtain ⟨l, rfl, hl⟩ := printIteration_inv h
  refine ⟨l, rfl, ?_⟩
  rcases hl with ⟨h0, rfl⟩ | ⟨h0, j, hj, hl⟩
  · exact Or.inl ⟨h0, rfl⟩
  · have : j = i := by rw [hi] at hj; injection hj with hj; exact hj.symm
    subst this
    rcases hl with ⟨h1, hp, rfl⟩ | ⟨h1, o, st, phi, rho, np, more, ho, _, _, _, _, _, rfl⟩
    · exact Or.inr (Or.inl ⟨h1, hp, rfl⟩)
    · have : o = k := by rw [hk] at ho; injection ho with ho; exact ho.symm
      subst this
      refine Or.inr (Or.inr ⟨h0, h1, ?_, ?_, ?_⟩)
      all_goals split <;> simp [iterLines, solLines, msgLines]

/-- output and counters over a pass: `k'` is the new outer counter -/
theorem pass_out {e : Env α} {d : Data α} {s : St α} {r : Step α} {k i : Int}
    (hk : s.outer = some k) (hi : s.inner = some i) (h : pass e d s = .ok r) :
    ∃ l, PassOut d.opts.printLevel k i l ∧
      ((∃ s', r = .inl s' ∧ s'.out = s.out ++ l ∧
          ((s'.outer = some k ∧ s'.inner = some (i + 1)) ∨
           (∃ k', k < k' ∧ s'.outer = some k' ∧ s'.inner = some 0))) ∨
       (∃ s' t, r = .inr (.successfulReturn, s') ∧ s'.algo = some t ∧
          s'.out = s.out ++ l ++ (if d.opts.printLevel > 0 then [Ev.solution t] else [])) ∨
       (∃ s' rv, r = .inr (rv, s') ∧ rv ≠ .successfulReturn ∧ s'.outer ≠ none ∧
          (s'.out = s.out ++ l ∨ s'.out = s.out ++ l ++ [Ev.msg rv]) ∧
          (s'.out = s.out ++ l ↔ (rv = .maxIterationsReached ∨ rv = .maxPenaltyReached)))) := by
  obtain ⟨s1, s2, s3, h1, h2, h3, hcase⟩ := pass_inv h
  have e1 : ∃ l, PassOut d.opts.printLevel k i l ∧ s1.out = s.out ++ l ∧ s1.outer = some k ∧
      s1.inner = some (i + 1) := by
    obtain ⟨x, a, b, c, p, l, st, t', j, _, hj, _, _, hp, hpr, _, rfl⟩ := advance_inv h1
    subst hp
    have : j = i := by rw [hi] at hj; injection hj with hj; exact hj.symm
    subst this
    obtain ⟨l', hl', hP⟩ := printIteration_out (k := k) (i := j) (by simp [hk]) (by simp [hi]) hpr
    simp only [List.append_cancel_left_eq] at hl'
    subst hl'
    exact ⟨l, hP, rfl, hk, rfl⟩
  obtain ⟨l, hP, o1, k1, i1⟩ := e1
  refine ⟨l, hP, ?_⟩
  rcases hcase with ⟨_, hco, q, hq, rfl⟩ | ⟨s4, t', rho, h4, _, _, hlim⟩
  · right; left
    obtain ⟨hh, gk, rfl⟩ := no_update_before_success h2 h3 hco
    obtain ⟨y, t, ht, hq1, hq2⟩ := accept_inv hq
    refine ⟨q.2, t, by rw [← hq1], by rw [hq2], ?_⟩
    rw [hq2]
    simp [o1]
  · have bmp : ∀ (u v : St α), LCQ.bump d u = .ok v → v.out = u.out ∧
        ∃ j, u.outer = some j ∧ v.outer = some (j + 1) ∧ v.inner = some 0 := by
      intro u v hb
      obtain ⟨_, _, _, _, o, _, ho, _, rfl⟩ := bump_inv hb
      exact ⟨rfl, o, ho, rfl, rfl⟩
    have e2 : s2.out = s.out ++ l ∧ ((s2.outer = some k ∧ s2.inner = some (i + 1)) ∨
        (∃ k', k < k' ∧ s2.outer = some k' ∧ s2.inner = some 0)) := by
      obtain ⟨r, hh, _, hr2, ⟨_, h'⟩ | ⟨_, h'⟩⟩ := dynamicPenalty_inv h2
      · subst h'
        rw [hr2]
        exact ⟨o1, Or.inl ⟨k1, i1⟩⟩
      · obtain ⟨b1, j, b2, b3, b4⟩ := bmp _ _ h'
        rw [hr2] at b1 b2
        simp only at b1 b2
        rw [k1] at b2
        injection b2 with b2
        subst b2
        exact ⟨b1.trans o1, Or.inr ⟨_, by omega, b3, b4⟩⟩
    have e4 : s4.out = s.out ++ l ∧ ((s4.outer = some k ∧ s4.inner = some (i + 1)) ∨
        (∃ k', k < k' ∧ s4.outer = some k' ∧ s4.inner = some 0)) := by
      obtain ⟨gk, rfl⟩ := updateLinearization_inv h3
      rcases h4 with ⟨_, rfl⟩ | ⟨_, _, hb⟩
      · exact e2
      · obtain ⟨b1, j, b2, b3, b4⟩ := bmp _ _ hb
        refine ⟨b1.trans e2.1, Or.inr ⟨j + 1, ?_, b3, b4⟩⟩
        simp only at b2
        rcases e2.2 with ⟨c1, _⟩ | ⟨k', c0, c1, _⟩
        · rw [c1] at b2; injection b2 with b2; omega
        · rw [c1] at b2; injection b2 with b2; omega
    have hout : s4.outer ≠ none := by rcases e4.2 with ⟨c, _⟩ | ⟨_, _, c, _⟩ <;> rw [c] <;> simp
    rcases hlim with ⟨_, rfl⟩ | ⟨_, _, rfl⟩ | ⟨_, _, hn⟩
    · right; right
      exact ⟨s4, _, rfl, by simp, hout, Or.inl e4.1, by simp [e4.1]⟩
    · right; right
      exact ⟨s4, _, rfl, by simp, hout, Or.inl e4.1, by simp [e4.1]⟩
    · obtain ⟨gk, q, hq, hcase⟩ := nextStep_inv hn
      obtain ⟨qq, hqq, hqc, it, ex, st, _, _, _, w, c, m, x, y, a, b, p, _, _, _, _, hq2⟩ := solveQP_inv hq
      rcases hcase with ⟨hne, rfl⟩ | ⟨_, x', m', lt, a', rfl⟩
      · right; right
        refine ⟨_, _, rfl, hne, ?_, Or.inr ?_, ?_⟩
        · rw [hq2]; exact hout
        · rw [hq2]; simp [St.say, e4.1]
        · have hmsg : q.1 ≠ .maxIterationsReached ∧ q.1 ≠ .maxPenaltyReached := by
            obtain ⟨sub, _, ⟨g, _⟩ | ⟨_, _, _, _, _, ⟨g, _⟩ | ⟨g, _⟩ | ⟨g, _⟩ |
              ⟨⟨g, _⟩ | ⟨g, _⟩, _⟩⟩⟩ := subSolve_ret hqq <;> rw [hqc, g] <;> simp
          rw [hq2]
          simp [St.say, e4.1, hmsg]
      · left
        refine ⟨_, rfl, by rw [hq2]; exact e4.1, ?_⟩
        rw [hq2]
        exact e4.2

/-- what has been printed at the head of the loop, `t` iterations done -/
structure OInv (level : Int) (pre : List (Ev α)) (s : St α) (t : Nat) (new : List (Ev α)) : Prop where
  out : s.out = pre ++ new
  sols : solLines new = []
  msgs : msgLines new = []
  none0 : level = 0 → new = []
  inner : 2 ≤ level → (iterLines new).length = t
  outer : level = 1 → ∃ k i, s.outer = some k ∧ s.inner = some i ∧ 0 ≤ i ∧ 0 ≤ k ∧
    (iterLines new).Pairwise (fun a b => a.1 < b.1) ∧
    (∀ p ∈ iterLines new, p.2 = 0 ∧ p.1 ≤ k ∧ (i = 0 → p.1 < k)) ∧
    (if t = 0 then iterLines new = [] ∧ i = 0 ∧ k = 0 else (iterLines new).head? = some (0, 0))

/-- what has been printed in the whole run -/
def Printed (level : Int) (t : Int) (rv : RV) (status : Option AlgStat) (new : List (Ev α)) : Prop :=
  (level = 0 → iterLines new = []) ∧
  (2 ≤ level → ((iterLines new).length : Int) = t) ∧
  (level = 1 → (iterLines new).Pairwise (fun a b => a.1 < b.1) ∧ (∀ p ∈ iterLines new, p.2 = 0) ∧
    (0 < t → (iterLines new).head? = some (0, 0)) ∧ (t = 0 → iterLines new = [])) ∧
  (if 0 < level ∧ rv = .successfulReturn then ∃ a b, status = some a ∧ new = b ++ [Ev.solution a] ∧
      solLines b = [] else solLines new = []) ∧
  (if rv = .successfulReturn ∨ rv = .maxIterationsReached ∨ rv = .maxPenaltyReached then msgLines new = []
    else ∃ b, new = b ++ [Ev.msg rv] ∧ msgLines b = []) ∧
  (level = 0 → new = [] ∨ new = [Ev.msg rv])

theorem PassOut.iterStep {level k i : Int} {l new : List (Ev α)} {t : Nat} (hP : PassOut level k i l)
    (h : level = 1 → 0 ≤ i ∧ 0 ≤ k ∧
      (iterLines new).Pairwise (fun a b => a.1 < b.1) ∧
      (∀ p ∈ iterLines new, p.2 = 0 ∧ p.1 ≤ k ∧ (i = 0 → p.1 < k)) ∧
      (if t = 0 then iterLines new = [] ∧ i = 0 ∧ k = 0 else (iterLines new).head? = some (0, 0)))
    (h2 : 2 ≤ level → (iterLines new).length = t) :
    (level = 1 → (iterLines (new ++ l)).Pairwise (fun a b => a.1 < b.1) ∧
      (∀ p ∈ iterLines (new ++ l), p.2 = 0 ∧ p.1 ≤ k) ∧
      (iterLines (new ++ l)).head? = some (0, 0)) ∧
    (2 ≤ level → (iterLines (new ++ l)).length = t + 1) ∧ solLines l = [] ∧ msgLines l = [] ∧
    (level = 0 → l = []) := by
  rw [iterLines_append]
  rcases hP with ⟨h0, rfl⟩ | ⟨h1, hp, rfl⟩ | ⟨hn0, hn1, e1, e2, e3⟩
  · refine ⟨fun h => by omega, fun h => by omega, rfl, rfl, fun _ => rfl⟩
  · refine ⟨fun _ => ?_, fun h => by omega, rfl, rfl, fun _ => rfl⟩
    obtain ⟨_, _, hpw, hall, hh⟩ := h h1
    have ht : t ≠ 0 := by
      rintro rfl
      simp only [if_true] at hh
      omega
    rw [if_neg ht] at hh
    simp only [iterLines, List.append_nil]
    exact ⟨hpw, fun p hp => ⟨(hall p hp).1, (hall p hp).2.1⟩, hh⟩
  · refine ⟨fun h1 => ?_, fun h => by rw [e1, List.length_append, h2 h]; rfl, e2, e3,
      fun h => absurd h hn0⟩
    obtain ⟨hi, hk, hpw, hall, hh⟩ := h h1
    have hi0 : i = 0 := by
      by_contra hne
      exact hn1 ⟨h1, by omega⟩
    rw [e1]
    refine ⟨?_, ?_, ?_⟩
    · rw [List.pairwise_append]
      refine ⟨hpw, by simp, ?_⟩
      intro a ha b hb
      simp only [List.mem_singleton] at hb
      subst hb
      exact (hall a ha).2.2 hi0
    · intro p hp
      rw [List.mem_append] at hp
      rcases hp with hp | hp
      · exact ⟨(hall p hp).1, (hall p hp).2.1⟩
      · simp only [List.mem_singleton] at hp
        subst hp
        exact ⟨hi0, le_refl _⟩
    · by_cases ht : t = 0
      · rw [if_pos ht] at hh
        rw [hh.1, hh.2.1, hh.2.2]
        rfl
      · rw [if_neg ht] at hh
        rw [List.head?_append, hh]
        rfl

/-- What a run prints.  `level` 0: nothing but error messages; 1: one line per outer iteration in
which a pass starts with inner counter 0, beginning with outer iteration 0; 2 (or more): one line per
iteration.  A solution line is printed exactly once, as the last line, if the run is successful and the
level is positive; an error message is printed exactly for errors other than the two limits. -/
theorem C43_output {e : Env α} {o : Obj α} {fuel : Nat} {r : RV × Obj α} {i : RV × Obj α}
    (h : runSolver e fuel o = .ok (some r)) (hi : initializeSolver e o = .ok i)
    (hok : i.1 = .successfulReturn) :
    ∃ new, r.2.s.out = o.s.out ++ new ∧
      Printed o.d.opts.printLevel r.2.s.stats.iterTotal r.1 r.2.s.algo new := by
  obtain ⟨i', hi', hc⟩ := runSolver_inv h
  have : i' = i := by rw [hi] at hi'; injection hi' with hi'; exact hi'.symm
  subst this
  rcases hc with ⟨hne, _⟩ | ⟨_, hd, hc⟩
  · exact absurd hok hne
  have ho := (Live.start hi hok).1
  obtain ⟨nd, bo, lo, up, sub, y, w, gt, pc, gp, hin⟩ := initializeSolver_ok hi hok
  have hout : i'.2.s.out = o.s.out ++ (if o.d.opts.printLevel > 0 then [Ev.newline] else []) := by
    rw [hin]
  have hin0 : i'.2.s.inner = some 0 := by rw [hin]
  generalize hpre : (if o.d.opts.printLevel > 0 then [Ev.newline] else ([] : List (Ev α))) = pre at hout
  have hpre' : iterLines pre = [] ∧ solLines pre = [] ∧ msgLines pre = [] ∧
      (o.d.opts.printLevel = 0 → pre = []) := by
    subst hpre
    refine ⟨?_, ?_, ?_, ?_⟩
    · split <;> rfl
    · split <;> rfl
    · split <;> rfl
    · intro h0; rw [if_neg (by omega)]
  obtain ⟨p1, p2, p3, p4⟩ := hpre'
  have hmsg : ∀ (u v : St α) (init : Bool) (rv : RV), solveQP e i'.2.d u init = .ok (rv, v) →
      rv ≠ .maxIterationsReached ∧ rv ≠ .maxPenaltyReached ∧ v.out = u.out := by
    intro u v init rv hq
    obtain ⟨qq, hqq, hqc, it, ex, st, _, _, _, w, c, m, x, y, a, b, p, _, _, _, _, hq2⟩ := solveQP_inv hq
    simp only at hqc hq2
    refine ⟨?_, ?_, by rw [hq2]⟩
    · obtain ⟨sub, _, ⟨g, _⟩ | ⟨_, _, _, _, _, ⟨g, _⟩ | ⟨g, _⟩ | ⟨g, _⟩ |
        ⟨⟨g, _⟩ | ⟨g, _⟩, _⟩⟩⟩ := subSolve_ret hqq <;> rw [hqc, g] <;> simp
    · obtain ⟨sub, _, ⟨g, _⟩ | ⟨_, _, _, _, _, ⟨g, _⟩ | ⟨g, _⟩ | ⟨g, _⟩ |
        ⟨⟨g, _⟩ | ⟨g, _⟩, _⟩⟩⟩ := subSolve_ret hqq <;> rw [hqc, g] <;> simp
  rcases hc with hf | ⟨s, hf, hm⟩
  · rcases Live.first hi hok hf with ⟨s, h, _⟩ | ⟨q, hq, hne, _, _, _, _, _, h0, _, _, u, v, hv, hqv⟩
    · cases h
    · injection hq with hq
      subst hq
      simp only at hne h0 hv hqv
      obtain ⟨m1, m2, m3⟩ := hmsg _ _ _ _ hv
      have hv' : v.out = o.s.out ++ pre := by
        obtain ⟨gk, q', hq', hcase⟩ := firstStep_inv hf
        obtain ⟨_, _, m3'⟩ := hmsg _ _ _ _ hq'
        rcases hcase with ⟨_, hr⟩ | ⟨_, _, _, _, _, _, hr⟩
        · injection hr with hr
          injection hr with _ hr
          rw [hqv] at hr
          have := congrArg St.out hr
          simp only [St.say] at this
          rw [← hout, show i'.2.s.out = q'.2.out from m3'.symm]
          exact List.append_inj_left' this rfl
        · cases hr
      refine ⟨pre ++ [Ev.msg r.1], ?_, ?_⟩
      · rw [hqv]; simp only [St.say]; rw [hv', List.append_assoc]
      · rw [h0]
        refine ⟨?_, ?_, ?_, ?_, ?_, ?_⟩
        · intro _; simp [iterLines_append, p1, iterLines]
        · intro _; simp [iterLines_append, p1, iterLines]
        · intro _; simp [iterLines_append, p1, iterLines]
        · rw [if_neg (by simp [hne])]; simp [solLines_append, p2, solLines]
        · rw [if_neg (by simp [hne, m1, m2])]; exact ⟨pre, rfl, p3⟩
        · intro hl; rw [p4 hl]; simp
  · rcases Live.first hi hok hf with ⟨s', h, hl, _⟩ | ⟨q, hq, _⟩
    · injection h with h
      subst h
      have hs : s.out = o.s.out ++ pre ∧ s.inner = some 0 := by
        obtain ⟨gk, q', hq', hcase⟩ := firstStep_inv hf
        obtain ⟨_, _, m3'⟩ := hmsg _ _ _ _ hq'
        have hin' : q'.2.inner = i'.2.s.inner := by
          obtain ⟨qq, hqq, hqc, it, ex, st, _, _, _, w, c, m, x, y, a, b, p, _, _, _, _, hq2⟩ :=
            solveQP_inv hq'
          rw [hq2]
        rcases hcase with ⟨_, hr⟩ | ⟨_, _, _, _, _, _, hr⟩
        · cases hr
        · injection hr with hr
          rw [hr]
          exact ⟨m3'.trans hout, hin'.trans hin0⟩
      rw [← ho] at hl p4
      rw [← ho]
      have := mainLoop_rule (e := e) (d := i'.2.d)
        (fun s => ∃ t k new, Live i'.2.d.opts s t k ∧
          ((t = 0 ∧ k = 0) ∨ (i'.2.d.opts.maxRho <. penalty i'.2.d.opts k) = false) ∧
          (∃ j, s.inner = some j) ∧ OInv i'.2.d.opts.printLevel o.s.out s t new)
        (fun q => ∃ new, q.2.out = o.s.out ++ new ∧
          Printed i'.2.d.opts.printLevel q.2.stats.iterTotal q.1 q.2.algo new) ?_ fuel s (r.1, r.2.s)
        ⟨0, 0, pre, hl, Or.inl ⟨rfl, rfl⟩, ⟨0, hs.2⟩, hs.1, p2, p3, p4, fun _ => by rw [p1]; rfl,
          fun _ => ⟨0, 0, hl.outer, hs.2, le_refl _, le_refl _, by rw [p1]; simp, by rw [p1]; simp,
            by rw [if_pos rfl]; exact ⟨p1, rfl, rfl⟩⟩⟩ hm
      · exact this
      · rintro s r ⟨t, k, new, hl, hk, ⟨j, hj⟩, hI⟩ hp
        obtain ⟨l, hP, hcase⟩ := pass_out hl.outer hj hp
        obtain ⟨q1, q2, q3, q4, q5⟩ := hP.iterStep (new := new) (t := t)
          (by
            intro h1
            obtain ⟨k', i', a1, a2, a3, a4, a5, a6, a7⟩ := hI.outer h1
            have : k' = (k : Int) := by rw [hl.outer] at a1; injection a1 with a1; exact a1.symm
            subst this
            have : i' = j := by rw [hj] at a2; injection a2 with a2; exact a2.symm
            subst this
            exact ⟨a3, a4, a5, a6, a7⟩) hI.inner
        have hcount : ∀ q, r = .inr q → q.2.stats.iterTotal = ((t + 1 : Nat) : Int) := by
          intro q hq
          rcases hl.pass hk hp with ⟨_, _, h, _⟩ | ⟨q', k', h, he, _⟩
          · rw [h] at hq; cases hq
          · rw [h] at hq
            injection hq with hq
            subst hq
            exact he.counts.2.1
        rcases hcase with ⟨s', rfl, o', c'⟩ | ⟨s', a, rfl, ha, o'⟩ | ⟨s', rv, rfl, hne, _, o', hiff⟩
        · refine ⟨?_, by intro q h; cases h⟩
          intro s'' h
          injection h with h
          subst h
          rcases hl.pass hk hp with ⟨_, k', h, l', _, _, _, _, r'⟩ | ⟨q', k', h, he, _⟩
          swap
          · cases h
          injection h with h
          subst h
          refine ⟨t + 1, k', new ++ l, l', Or.inr r', ?_, ?_⟩
          · rcases c' with ⟨_, c'⟩ | ⟨_, _, _, c'⟩ <;> exact ⟨_, c'⟩
          · refine ⟨by rw [o', hI.out, List.append_assoc], by rw [solLines_append, hI.sols, q3]; rfl,
              by rw [msgLines_append, hI.msgs, q4]; rfl, fun h => by rw [hI.none0 h, q5 h]; rfl, q2, ?_⟩
            intro h1
            obtain ⟨b1, b2, b3⟩ := q1 h1
            obtain ⟨k0, i0, a1, a2, a3, a4, _⟩ := hI.outer h1
            have ek : k0 = (k : Int) := by rw [hl.outer] at a1; injection a1 with a1; exact a1.symm
            have ei : i0 = j := by rw [hj] at a2; injection a2 with a2; exact a2.symm
            subst ek ei
            rcases c' with ⟨c1, c2⟩ | ⟨k'', c0, c1, c2⟩
            · refine ⟨k, i0 + 1, c1, c2, by omega, a4, b1, ?_, by rw [if_neg (by omega)]; exact b3⟩
              intro p hp
              exact ⟨(b2 p hp).1, (b2 p hp).2, fun h => by omega⟩
            · refine ⟨k'', 0, c1, c2, le_refl _, by omega, b1, ?_, by rw [if_neg (by omega)]; exact b3⟩
              intro p hp
              have := (b2 p hp).2
              exact ⟨(b2 p hp).1, by omega, fun _ => by omega⟩
        · refine ⟨by intro q h; (cases h), ?_⟩
          intro q h
          injection h with h
          have hct := hcount _ rfl
          subst h
          simp only at hct ⊢
          refine ⟨new ++ l ++ (if i'.2.d.opts.printLevel > 0 then [Ev.solution a] else []),
            by rw [o', hI.out]; simp only [List.append_assoc], ?_⟩
          have hit : ∀ x : List (Ev α), iterLines (x ++ (if i'.2.d.opts.printLevel > 0 then
              [Ev.solution a] else [])) = iterLines x := by
            intro x
            rw [iterLines_append]
            split <;> simp [iterLines]
          refine ⟨?_, ?_, ?_, ?_, ?_, ?_⟩
          · intro h0; rw [hit, hI.none0 h0, q5 h0]; rfl
          · intro h2; rw [hit, q2 h2, hct]
          · intro h1
            rw [hit]
            obtain ⟨b1, b2, b3⟩ := q1 h1
            exact ⟨b1, fun p hp => (b2 p hp).1, fun _ => b3, fun h => by omega⟩
          · by_cases hpl : i'.2.d.opts.printLevel > 0
            · rw [if_pos ⟨hpl, rfl⟩, if_pos hpl]
              exact ⟨a, new ++ l, ha, rfl, by rw [solLines_append, hI.sols, q3]; rfl⟩
            · rw [if_neg (by simp [hpl]), if_neg hpl, List.append_nil, solLines_append, hI.sols, q3]
              rfl
          · rw [if_pos (Or.inl rfl), msgLines_append, msgLines_append, hI.msgs, q4]
            split <;> rfl
          · intro h0
            left
            rw [hI.none0 h0, q5 h0, if_neg (by omega)]
            rfl
        · refine ⟨by intro q h; (cases h), ?_⟩
          intro q h
          injection h with h
          have hct := hcount _ rfl
          subst h
          simp only at hct ⊢
          have base : ∀ x : List (Ev α), iterLines x = [] →
              (i'.2.d.opts.printLevel = 0 → iterLines (new ++ l ++ x) = []) ∧
              (2 ≤ i'.2.d.opts.printLevel → ((iterLines (new ++ l ++ x)).length : Int) =
                s'.stats.iterTotal) ∧
              (i'.2.d.opts.printLevel = 1 →
                (iterLines (new ++ l ++ x)).Pairwise (fun a b => a.1 < b.1) ∧
                (∀ p ∈ iterLines (new ++ l ++ x), p.2 = 0) ∧
                (0 < s'.stats.iterTotal → (iterLines (new ++ l ++ x)).head? = some (0, 0)) ∧
                (s'.stats.iterTotal = 0 → iterLines (new ++ l ++ x) = [])) := by
            intro x hx
            rw [iterLines_append (new ++ l) x, hx, List.append_nil]
            refine ⟨fun h0 => by rw [hI.none0 h0, q5 h0]; rfl, fun h2 => by rw [q2 h2, hct], ?_⟩
            intro h1
            obtain ⟨b1, b2, b3⟩ := q1 h1
            exact ⟨b1, fun p hp => (b2 p hp).1, fun _ => b3, fun h => by omega⟩
          by_cases hc : rv = .maxIterationsReached ∨ rv = .maxPenaltyReached
          · obtain ⟨c1, c2, c3⟩ := base [] rfl
            simp only [List.append_nil] at c1 c2 c3
            refine ⟨new ++ l, by rw [hiff.mpr hc, hI.out, List.append_assoc], c1, c2, c3, ?_, ?_, ?_⟩
            · rw [if_neg (by simp [hne]), solLines_append, hI.sols, q3]; rfl
            · rw [if_pos (Or.inr hc), msgLines_append, hI.msgs, q4]; rfl
            · intro h0; left; rw [hI.none0 h0, q5 h0]; rfl
          · obtain ⟨c1, c2, c3⟩ := base [Ev.msg rv] rfl
            have o'' : s'.out = s.out ++ l ++ [Ev.msg rv] := by
              rcases o' with o' | o'
              · exact absurd (hiff.mp o') hc
              · exact o'
            refine ⟨new ++ l ++ [Ev.msg rv], by rw [o'', hI.out]; simp only [List.append_assoc],
              c1, c2, c3, ?_, ?_, ?_⟩
            · rw [if_neg (by simp [hne]), solLines_append, solLines_append, hI.sols, q3]; rfl
            · rw [if_neg (by rintro (h | h); exacts [hne h, hc h])]
              exact ⟨new ++ l, rfl, by rw [msgLines_append, hI.msgs, q4]; rfl⟩
            · intro h0; right; rw [hI.none0 h0, q5 h0]; rfl
    · cases hq

/-- a run whose initialisation fails prints exactly one error message -/
theorem C43_init_fails {e : Env α} {o : Obj α} {fuel : Nat} {r : RV × Obj α} {i : RV × Obj α}
    (h : runSolver e fuel o = .ok (some r)) (hi : initializeSolver e o = .ok i)
    (hne : i.1 ≠ .successfulReturn) : r.2.s.out = o.s.out ++ [Ev.msg r.1] := by
  obtain ⟨i', hi', hc⟩ := runSolver_inv h
  rw [hi] at hi'
  injection hi' with hi'
  subst hi'
  rcases hc with ⟨_, hr⟩ | ⟨hok, _⟩
  · obtain ⟨hch, _⟩ := initializeSolver_fail hi hne
    obtain ⟨_, _, _, _, _, _, _, hch⟩ := chooseSolver_inv hch
    rw [hr, hch]
    rfl
  · exact absurd hok hne

/-- the output of the three levels for a run with four iterations, two of them in each outer
iteration -/
private def lines (lvl : Int) : Option (RV × List (Int × Int) × List AlgStat × Nat) :=
  match Ex.run (Ex.envOf fun k _ =>
      if k = 0 then Ex.good [1, 1] [] else if k = 1 then Ex.good [1, 1] [0, 0, 1/100, 1/100]
      else Ex.good [1, 0] [0, 0, 0, -198/100])
    (fun o => { o with printLevel := lvl }) 100 with
  | .ok (some r) => some (r.1, iterLines r.2.s.out, solLines r.2.s.out, r.2.s.out.length)
  | _ => none
example : lines 0 = some (.successfulReturn, [], [], 0) := by decide +kernel
example : lines 1 = some (.successfulReturn, [(0, 0), (1, 0)], [.sStat], 5) := by decide +kernel
example : lines 2 = some (.successfulReturn, [(0, 0), (0, 1), (1, 0), (1, 1)], [.sStat], 8) := by
  decide +kernel

end LCQ
