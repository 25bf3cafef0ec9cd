import Verif.Spec.Rows
import Verif.Props.Tracking
import Verif.Props.Output

/-!
# Records of the iterations: lemmas
-/

set_option linter.unusedSectionVars false

namespace LCQ
open Scalar

variable {α : Type} [Scalar α]

theorem tableLines_append (a b : List (Ev α)) : tableLines (a ++ b) = tableLines a ++ tableLines b := by
  induction a with
  | nil => rfl
  | cons v a ih => cases v <;> simp [tableLines, ih]

/-- the part of the statistics that is shown in the table -/
def Stats.tab (s : Stats α) : (List (List α) × List Int × List Int) × (List α × List α × List α) × (List α × List α × List α) :=
  ((s.xSteps, s.innerIters, s.subIters), (s.stepLength, s.stepSize, s.statVals), (s.objVals, s.phiVals, s.meritVals))

theorem Stats.Table.congr {s s' : Stats α} {R : List (Rec α)} (h : s.Table R) (hs : s'.tab = s.tab) : s'.Table R := by
  simp only [Stats.tab, Prod.mk.injEq] at hs
  obtain ⟨⟨h1, h2, h3⟩, ⟨h4, h5, h6⟩, h7, h8, h9⟩ := hs
  exact ⟨h1.trans h.x, h2.trans h.inner, h3.trans h.sub, h4.trans h.len, h5.trans h.size, h6.trans h.stat, h7.trans h.obj,
    h8.trans h.phi, h9.trans h.merit⟩

/-- the record made in a pass from `s`; `s1` is the state after the step -/
structure RecOf (d : Data α) (s s1 : St α) (r : Rec α) : Prop where
  outer : s.outer = some r.outer
  inner : s.inner = some r.inner
  x : ∃ n x, d.dims = some n ∧ s1.xk = some x ∧ n.nV ≤ x.length ∧ r.x = x.take n.nV
  stat : ∃ n v, d.dims = some n ∧ s1.statk = some v ∧ maxAbs v n.nV = .ok r.stat
  phi : getPhi d s1 = .ok r.phi
  rho : s.rho = some r.rho
  size : ∃ n v, d.dims = some n ∧ s.pk = some v ∧ maxAbs v n.nV = .ok r.size
  len : s.alpha = some r.len
  sub : s.qpIter = some r.sub
  obj : getObj d s1 = .ok r.obj
  merit : getMerit d s1 = .ok r.merit

theorem tmod_ten (a : Int) : a.tmod 10 = 0 ↔ (10 : Int) ∣ a := Int.dvd_iff_tmod_eq_zero.symm

theorem getPhi_frame {d : Data α} {s s' : St α} (h : s'.xk = s.xk) : getPhi d s' = getPhi d s := by
  simp only [getPhi, h]

theorem advance_rec {d : Data α} {s s1 : St α} (hb : d.opts.storeSteps = true) (h : advance d s = .ok s1)
    {k : Int} (hk : s.outer = some k) {rho : α} (hr : s.rho = some rho) :
    ∃ r, RecOf d s s1 r ∧ (∀ R, s.stats.Table R → s1.stats.Table (R ++ [r])) ∧
      ∃ l, s1.out = s.out ++ l ∧ tableLines l = r.shown d.opts.printLevel := by
  obtain ⟨_, _, ⟨hf, _⟩ | ⟨_, n, x, row, acc, hn, hx, hl, hq, hi, ha, ⟨p, hp, hpm⟩, ⟨st, hst, hsm⟩, ho, hph, hm, _, hs⟩⟩ := advance_stats h
  · rw [hb] at hf; cases hf
  refine ⟨⟨k, row.inner, x.take n.nV, row.stat, row.phi, rho, row.size, row.len, row.sub, row.obj, row.merit⟩,
    ⟨hk, hi, ⟨n, x, hn, hx, hl, rfl⟩, ⟨n, st, hn, hst, hsm⟩, hph, hr, ⟨n, p, hn, hp, hpm⟩, ha, hq, ho, hm⟩, ?_, ?_⟩
  · intro R hR
    rw [hs]
    constructor <;> simp [hR.x, hR.inner, hR.sub, hR.len, hR.size, hR.stat, hR.obj, hR.phi, hR.merit]
  · obtain ⟨x', a, b, c, pp, l, st', t', j, _, hj, _, _, hpp, hpr, _, rfl⟩ := advance_inv h
    subst hpp
    refine ⟨l, rfl, ?_⟩
    obtain ⟨l', hl', hc⟩ := printIteration_inv hpr
    have hll : l = l' := by
      have := congrArg St.out hl'
      simpa using this
    subst hll
    simp only at hst hph hc
    injection hst with hst
    subst hst
    have eo : ∀ {o' : Int}, s.outer = some o' → o' = k := fun h => by rw [hk] at h; injection h with h; exact h.symm
    have ei : ∀ {o' : Int}, s.inner = some o' → o' = row.inner := fun h => by rw [hi] at h; injection h with h; exact h.symm
    unfold Rec.shown
    rcases hc with ⟨h0, rfl⟩ | ⟨h0, i, h1, hc⟩
    · rw [if_pos h0]; rfl
    · rw [if_neg h0]
      have := ei h1
      subst this
      rcases hc with ⟨h2, h3, rfl⟩ | ⟨h2, o', st2, phi2, rho2, np2, more, g1, g2, g3, ⟨v, n', g4, g5, g6⟩, ⟨w, n'', g7, g8, g9⟩, g10, rfl⟩
      · rw [if_pos h2, if_pos h3]; rfl
      · have := eo g1
        subst this
        have e1 : rho2 = rho := by rw [hr] at g2; injection g2 with g2; exact g2.symm
        have e2 : phi2 = row.phi := by
          have := g3.symm.trans ((getPhi_frame (by rfl)).symm.trans hph)
          injection this
        have e3 : n' = n := by rw [hn] at g5; injection g5 with g5; exact g5.symm
        have e4 : n'' = n := by rw [hn] at g8; injection g8 with g8; exact g8.symm
        injection g4 with g4
        subst e1 e2 e3 e4 g4
        have e5 : st2 = row.stat := by rw [hsm] at g6; injection g6 with g6; exact g6.symm
        have e6 : np2 = row.size := by
          have : w = p := by rw [hp] at g7; injection g7 with g7; exact g7.symm
          subst this
          rw [hpm] at g9; injection g9 with g9; exact g9.symm
        subst e5 e6
        have e7 : more = if 2 ≤ d.opts.printLevel then some (row.len, row.sub) else none := by
          rcases iterMore_inv g10 with ⟨m1, rfl⟩ | ⟨m1, a', q', m2, m3, rfl⟩
          · rw [if_neg (by omega)]
          · have : a' = row.len := by have := ha.symm.trans m2; injection this with this; exact this.symm
            subst this
            have : q' = row.sub := by have := hq.symm.trans m3; injection this with this; exact this.symm
            subst this
            rw [if_pos m1]
        subst e7
        simp only [tmod_ten]
        by_cases hlev : d.opts.printLevel = 1
        · have hi0 : ¬ 0 < row.inner := fun h => h2 ⟨hlev, h⟩
          rw [if_pos hlev, if_neg hi0]
          by_cases h10 : (10 : Int) ∣ o'
          · rw [if_pos (Or.inr ⟨hlev, h10⟩), if_pos h10]; rfl
          · rw [if_neg, if_neg h10]
            · rfl
            · rintro (⟨h, _⟩ | ⟨_, h⟩)
              · omega
              · exact h10 h
        · rw [if_neg hlev]
          by_cases h10 : 2 ≤ d.opts.printLevel ∧ (10 : Int) ∣ row.inner
          · rw [if_pos (Or.inl h10), if_pos h10]; rfl
          · rw [if_neg, if_neg h10]
            · rfl
            · rintro (h | ⟨h, _⟩)
              · exact h10 h
              · exact hlev h

theorem bump_tab {d : Data α} {s s' : St α} (h : bump d s = .ok s') : s'.stats.tab = s.stats.tab ∧ s'.out = s.out := by
  obtain ⟨r, a, b, c, t, _, _, _, rfl⟩ := bump_inv h
  obtain ⟨b', hb⟩ := updateRhoOpt_stats s.stats (r *. d.opts.factor)
  refine ⟨?_, rfl⟩
  dsimp only
  rw [hb]
  rfl

/-- nothing is recorded and no line of the table is printed in the rest of a pass -/
theorem pass_rest {e : Env α} {d : Data α} {s : St α} {r : Step α} (h : pass e d s = .ok r) :
    ∃ s1, advance d s = .ok s1 ∧ ∀ u, (r = .inl u ∨ ∃ rv, r = .inr (rv, u)) →
      u.stats.tab = s1.stats.tab ∧ ∃ l, u.out = s1.out ++ l ∧ tableLines l = [] := by
  obtain ⟨s1, s2, s3, h1, h2, h3, hcase⟩ := pass_inv h
  refine ⟨s1, h1, ?_⟩
  have e2 : s2.stats.tab = s1.stats.tab ∧ s2.out = s1.out := by
    obtain ⟨r, hh, _, hr2, ⟨_, h'⟩ | ⟨_, h'⟩⟩ := dynamicPenalty_inv h2
    · subst h'; rw [hr2]; exact ⟨rfl, rfl⟩
    · obtain ⟨b1, b2⟩ := bump_tab h'
      rw [hr2] at b1 b2
      exact ⟨b1, b2⟩
  have e3 : s3.stats.tab = s1.stats.tab ∧ s3.out = s1.out := by
    obtain ⟨gk, rfl⟩ := updateLinearization_inv h3
    exact e2
  intro u hu
  rcases hcase with ⟨_, _, q, hq, rfl⟩ | ⟨s4, t', rho, h4, _, _, hlim⟩
  · obtain ⟨y, t, _, _, hq2⟩ := accept_inv hq
    rcases hu with hu | ⟨rv, hu⟩
    · cases hu
    · injection hu with hu
      have : u = q.2 := by rw [hu]
      subst this
      rw [hq2]
      refine ⟨e3.1, _, by rw [← e3.2], ?_⟩
      split <;> rfl
  · have e4 : s4.stats.tab = s1.stats.tab ∧ s4.out = s1.out := by
      rcases h4 with ⟨_, rfl⟩ | ⟨_, _, h4⟩
      · exact e3
      · obtain ⟨b1, b2⟩ := bump_tab h4
        exact ⟨b1.trans e3.1, b2.trans e3.2⟩
    rcases hlim with ⟨_, rfl⟩ | ⟨_, _, rfl⟩ | ⟨_, _, hn⟩
    · rcases hu with hu | ⟨rv, hu⟩
      · cases hu
      · injection hu with hu; injection hu with _ hu; subst hu
        exact ⟨e4.1, [], by rw [e4.2, List.append_nil], rfl⟩
    · rcases hu with hu | ⟨rv, hu⟩
      · cases hu
      · injection hu with hu; injection hu with _ hu; subst hu
        exact ⟨e4.1, [], by rw [e4.2, List.append_nil], rfl⟩
    · obtain ⟨gk, q, hq, hcase⟩ := nextStep_inv hn
      obtain ⟨it, ex, _, hst⟩ := solve_stats hq
      obtain ⟨_, _, _, _, _, _, _, _, _, w, c, m, x, y, a, b, p, _, _, _, hq2⟩ := solveQP_inv hq
      have ht : q.2.stats.tab = s1.stats.tab := by rw [hst]; exact e4.1
      have ho : q.2.out = s1.out := by rw [hq2.2]; exact e4.2
      rcases hcase with ⟨hne, rfl⟩ | ⟨_, x', m', lt, a', rfl⟩
      · rcases hu with hu | ⟨rv, hu⟩
        · cases hu
        · injection hu with hu; injection hu with _ hu; subst hu
          exact ⟨ht, [Ev.msg q.1], by rw [← ho]; rfl, rfl⟩
      · rcases hu with hu | ⟨rv, hu⟩
        · injection hu with hu; subst hu
          exact ⟨ht, [], by rw [List.append_nil]; exact ho, rfl⟩
        · cases hu

/-- the records made on the way from the first head to the head `s` -/
inductive Trail (e : Env α) (d : Data α) (s0 : St α) : List (Rec α) → St α → Prop
  | start : Trail e d s0 [] s0
  | pass {R : List (Rec α)} {s s1 s' : St α} {r : Rec α} : Trail e d s0 R s → advance d s = .ok s1 → RecOf d s s1 r →
      LCQ.pass e d s = .ok (.inl s') → Trail e d s0 (R ++ [r]) s'

theorem Trail.reach {e : Env α} {d : Data α} {s0 s : St α} {R : List (Rec α)} (h : Trail e d s0 R s) : Reach e d s0 s := by
  induction h with
  | start => exact .start
  | pass _ _ _ hp ih => exact .pass ih hp

/-- state at a head after `R`, with `new` printed after `pre` -/
structure Logged (d : Data α) (pre : List (Ev α)) (s : St α) (R : List (Rec α)) : Prop where
  tab : s.stats.Table R
  out : ∃ new, s.out = pre ++ new ∧ tableLines new = R.flatMap (Rec.shown d.opts.printLevel)

theorem Logged.pass {e : Env α} {d : Data α} {pre : List (Ev α)} {s : St α} {R : List (Rec α)} (hb : d.opts.storeSteps = true)
    (h : Logged d pre s R) {k : Int} (hk : s.outer = some k) {rho : α} (hr : s.rho = some rho) {r : Step α}
    (hp : LCQ.pass e d s = .ok r) :
    ∃ s1 rec, advance d s = .ok s1 ∧ RecOf d s s1 rec ∧ ∀ u, (r = .inl u ∨ ∃ rv, r = .inr (rv, u)) → Logged d pre u (R ++ [rec]) := by
  obtain ⟨s1, h1, h2⟩ := pass_rest hp
  obtain ⟨rec, h3, h4, l, h5, h6⟩ := advance_rec hb h1 hk hr
  refine ⟨s1, rec, h1, h3, ?_⟩
  intro u hu
  obtain ⟨h7, l', h8, h9⟩ := h2 u hu
  obtain ⟨new, h10, h11⟩ := h.out
  refine ⟨(h4 R h.tab).congr h7, new ++ l ++ l', ?_, ?_⟩
  · rw [h8, h5, h10]
    simp
  · rw [tableLines_append, tableLines_append, h11, h6, h9]
    simp

/-- the records of a run -/
theorem run_log {e : Env α} {o : Obj α} {fuel : Nat} {r : RV × Obj α} {i : RV × Obj α}
    (h : runSolver e fuel o = .ok (some r)) (hi : initializeSolver e o = .ok i) (hok : i.1 = .successfulReturn)
    (hb : o.d.opts.storeSteps = true) :
    ∃ R, Logged r.2.d o.s.out r.2.s R ∧ ((R = [] ∧ r.1 ≠ .successfulReturn ∧ r.2.s.stats.iterTotal = 0) ∨
      ∃ s0 s s1 R' rec, R = R' ++ [rec] ∧ Enters e o r.2.d s0 ∧ Trail e r.2.d s0 R' s ∧ advance r.2.d s = .ok s1 ∧
        RecOf r.2.d s s1 rec ∧ LCQ.pass e r.2.d s = .ok (.inr (r.1, r.2.s))) := by
  obtain ⟨i', hi', hc⟩ := runSolver_inv h
  rw [hi] at hi'
  injection hi' with hi'
  subst hi'
  rcases hc with ⟨hne, _⟩ | ⟨_, hd, hc⟩
  · exact absurd hok hne
  rw [hd]
  obtain ⟨hopts, h1, h2, h3, h4, h5, h6⟩ := Live.start hi hok
  have hb' : i.2.d.opts.storeSteps = true := by rw [hopts]; exact hb
  have l0 : Logged i.2.d o.s.out i.2.s [] := by
    refine ⟨?_, ?_⟩
    · rw [h6]; constructor <;> rfl
    · obtain ⟨nd, bo, lo, up, sub, y, w, gt, pc, gp, hin⟩ := initializeSolver_ok hi hok
      refine ⟨_, by rw [hin], ?_⟩
      split <;> rfl
  have first : ∀ {s : St α} {q : RV × St α} {init : Bool}, Logged i.2.d o.s.out s [] → solveQP e i.2.d s init = .ok q →
      Logged i.2.d o.s.out q.2 [] := by
    intro s q init hl hq
    obtain ⟨it, ex, _, hst⟩ := solve_stats hq
    obtain ⟨_, _, _, _, _, _, _, _, _, w, c, m, x, y, a, b, p, _, _, _, hq2⟩ := solveQP_inv hq
    refine ⟨hl.tab.congr (by rw [hst]; rfl), ?_⟩
    obtain ⟨new, g1, g2⟩ := hl.out
    exact ⟨new, by rw [hq2.2]; exact g1, g2⟩
  rcases hc with hf | ⟨s, hf, hm⟩
  · refine ⟨[], ?_, Or.inl ⟨rfl, ?_⟩⟩
    · obtain ⟨gk, q, hq, ⟨hne, hr⟩ | ⟨_, _, _, _, _, _, hr⟩⟩ := firstStep_inv hf
      · injection hr with hr
        have hl := first (s := { i.2.s with gk := gk }) ⟨l0.tab, l0.out⟩ hq
        have e2 : r.2.s = q.2.say (.msg q.1) := congrArg Prod.snd hr
        rw [e2]
        refine ⟨hl.tab, ?_⟩
        obtain ⟨new, g1, g2⟩ := hl.out
        refine ⟨new ++ [.msg q.1], ?_, ?_⟩
        · simp [St.say, g1]
        · rw [tableLines_append, g2]; rfl
      · cases hr
    · rcases Live.first hi hok hf with ⟨s, h, _⟩ | ⟨q, hq, hne, _, _, _, _, _, h0, _, _, _⟩
      · cases h
      · injection hq with hq
        subst hq
        exact ⟨hne, h0⟩
  · have ls : Logged i.2.d o.s.out s [] := by
      obtain ⟨gk, q, hq, ⟨hne, hr⟩ | ⟨_, _, _, _, rho, _, hr⟩⟩ := firstStep_inv hf
      · cases hr
      · injection hr with hr
        have hl := first (s := { i.2.s with gk := gk }) ⟨l0.tab, l0.out⟩ hq
        obtain ⟨b2, hb2⟩ := updateRhoOpt_stats q.2.stats rho
        rw [hr]
        exact ⟨hl.tab.congr (by dsimp only; rw [hb2]; rfl), hl.out⟩
    have hlive : Live o.d.opts s 0 0 := by
      rcases Live.first hi hok hf with ⟨s', h, hl, _⟩ | ⟨q, hq, _⟩
      · injection h with h
        subst h
        exact hl
      · cases hq
    have hent : Enters e o i.2.d s := ⟨i, hi, hok, rfl, hf⟩
    refine mainLoop_rule (e := e) (d := i.2.d)
      (fun s' => ∃ R k, Trail e i.2.d s R s' ∧ Logged i.2.d o.s.out s' R ∧ Live i.2.d.opts s' R.length k ∧
        ((R.length = 0 ∧ k = 0) ∨ (i.2.d.opts.maxRho <. penalty i.2.d.opts k) = false))
      (fun q => ∃ R, Logged i.2.d o.s.out q.2 R ∧ ((R = [] ∧ q.1 ≠ .successfulReturn ∧ q.2.stats.iterTotal = 0) ∨
        ∃ s0 s s1 R' rec, R = R' ++ [rec] ∧ Enters e o i.2.d s0 ∧ Trail e i.2.d s0 R' s ∧ advance i.2.d s = .ok s1 ∧
        RecOf i.2.d s s1 rec ∧ LCQ.pass e i.2.d s = .ok (.inr q))) ?_
      fuel s (r.1, r.2.s) ⟨[], 0, .start, ls, by rw [hopts]; exact hlive, Or.inl ⟨rfl, rfl⟩⟩ hm
    rintro u v ⟨R, k, g1, g2, g3, g4⟩ hp
    obtain ⟨s1, rec, k1, k2, k3⟩ := g2.pass hb' g3.outer g3.rho hp
    refine ⟨?_, ?_⟩
    · intro s' hs'
      subst hs'
      rcases g3.pass g4 hp with ⟨s'', k', hr', l', _, _, _, _, r'⟩ | ⟨q, _, hr', _⟩
      · injection hr' with hr'
        subst hr'
        refine ⟨R ++ [rec], k', .pass g1 k1 k2 hp, k3 _ (Or.inl rfl), ?_, Or.inr r'⟩
        rw [List.length_append]
        exact l'
      · cases hr'
    · intro q hq
      subst hq
      refine ⟨R ++ [rec], k3 q.2 (Or.inr ⟨q.1, rfl⟩), Or.inr ⟨s, u, s1, R, rec, rfl, hent, g1, k1, k2, hp⟩⟩

end LCQ
