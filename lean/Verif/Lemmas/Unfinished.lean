import Verif.Lemmas.Reference
import Verif.Props.Perturb

/-!
# A pass that ends a run without success (lemmas)
-/

set_option linter.unusedSectionVars false

namespace LCQ
open Scalar Ext
open scoped Matrix

section
variable {α : Type} [Scalar α] {e : Env α} {o : Obj α} {d : Data α}

/-- counters at the head of the main loop -/
theorem AtHead.live {s : St α} (h : AtHead e o d s) :
    ∃ t k, Live d.opts s t k ∧ ((t = 0 ∧ k = 0) ∨ (d.opts.maxRho <. penalty d.opts k) = false) := by
  obtain ⟨s0, ⟨i, hi, hi1, rfl, hf⟩, h⟩ := h
  induction h with
  | start =>
    rcases Live.first hi hi1 hf with ⟨s, h, hl, _⟩ | ⟨q, hq, _⟩
    · injection h with h
      subst h
      rw [← (Live.start hi hi1).1] at hl
      exact ⟨0, 0, hl, Or.inl ⟨rfl, rfl⟩⟩
    · cases hq
  | pass _ hp ih =>
    obtain ⟨t, k, hl, hk⟩ := ih
    rcases hl.pass hk hp with ⟨s', k', he, l', _, _, _, _, r'⟩ | ⟨q, k', he, _⟩
    · injection he with he
      subst he
      exact ⟨t + 1, k', l', Or.inr r'⟩
    · cases he

/-- the codes of the two limits do not come from a subproblem -/
theorem solveQP_code {s : St α} {init : Bool} {q : RV × St α} (h : solveQP e d s init = .ok q) :
    ¬ (q.1 = .maxIterationsReached ∨ q.1 = .maxPenaltyReached) := by
  intro h7
  obtain ⟨r, hr, h8, _⟩ := solveQP_inv h
  rw [h8] at h7
  obtain ⟨_, _, ⟨h2, _⟩ | ⟨_, _, _, _, _, ⟨h2, _⟩ | ⟨h2, _⟩ | ⟨h2, _⟩ | ⟨⟨h2, _⟩ | ⟨h2, _⟩, _⟩⟩⟩ := subSolve_ret hr <;>
    rw [h2] at h7 <;> rcases h7 with h7 | h7 <;> cases h7

theorem bump_statk {s s' : St α} (h : bump d s = .ok s') : s'.statk = s.statk := by
  obtain ⟨_, _, _, _, _, _, _, _, rfl⟩ := bump_inv h
  rfl

theorem stationarityCheck_same {s s' : St α} (h : s'.statk = s.statk) : stationarityCheck d s' = stationarityCheck d s := by
  simp only [stationarityCheck, h]

/-- the tests made in a pass that ends a run without success have the same outcome at the end of the run -/
theorem pass_tests {s : St α} {q : RV × St α} (h : pass e d s = .ok (.inr q)) (hq : q.1 ≠ .successfulReturn) {t k : Nat}
    (hl : Live d.opts s t k) :
    (stationarityCheck d q.2 = .ok false ∨ complementarityCheck d q.2 = .ok false) ∧
    (q.1 = .maxPenaltyReached → (d.opts.maxRho <. penalty d.opts k) = false → complementarityCheck d q.2 = .ok false) := by
  obtain ⟨s1, s2, s3, h1, h2, h3, ⟨_, _, q', hq', hqq⟩ | ⟨s4, t', rho, h4, ht', hrho, h5⟩⟩ := pass_inv h
  · injection hqq with hqq
    subst hqq
    exact absurd (accept_inv hq').choose_spec.choose_spec.2.1 hq
  obtain ⟨l1, _⟩ := hl.advance h1
  have v3 : s3.statk = s2.statk ∧ s3.xk = s2.xk ∧ s3.rho = s2.rho := by
    obtain ⟨_, e3⟩ := updateLinearization_inv h3
    rw [e3]
    exact ⟨rfl, rfl, rfl⟩
  -- what is known about the state at the limit tests
  have key : (stationarityCheck d s4 = .ok false ∨ complementarityCheck d s4 = .ok false) ∧
      (s4.rho = some (penalty d.opts k) ∨ complementarityCheck d s4 = .ok false) := by
    rcases h4 with ⟨hst, rfl⟩ | ⟨_, hco, h4⟩
    · refine ⟨Or.inl hst, ?_⟩
      obtain ⟨r, hh, hr, hr2, ⟨_, h'⟩ | ⟨hb, h'⟩⟩ := dynamicPenalty_inv h2
      · left
        rw [v3.2.2, h', hr2]
        exact l1.rho
      · right
        have hx : s4.xk = s1.xk := by rw [v3.2.1, bump_xk h', hr2]
        rw [complementarityCheck_congr hx]
        exact leyffer_fires hr hb
    · have hx := complementarityCheck_congr (d := d) (bump_xk h4)
      rw [hx]
      exact ⟨Or.inr hco, Or.inr hco⟩
  have fin : ∀ s5 : St α, s5.statk = s4.statk → s5.xk = s4.xk →
      (stationarityCheck d s5 = .ok false ∨ complementarityCheck d s5 = .ok false) := by
    intro s5 g1 g2
    rw [stationarityCheck_same g1, complementarityCheck_congr g2]
    exact key.1
  rcases h5 with ⟨_, h5⟩ | ⟨_, hgt, h5⟩ | ⟨_, _, h5⟩
  · injection h5 with h5
    subst h5
    exact ⟨key.1, fun h => nomatch h⟩
  · injection h5 with h5
    subst h5
    refine ⟨key.1, fun _ hk => key.2.resolve_left fun hr => ?_⟩
    rw [hr] at hrho
    injection hrho with hrho
    rw [hrho, hgt] at hk
    cases hk
  · obtain ⟨gk, q', hq', ⟨hne, h6⟩ | ⟨_, _, _, _, _, ⟨⟩⟩⟩ := nextStep_inv h5
    injection h6 with h6
    have hno : q.1 ≠ .maxPenaltyReached := by
      intro h7
      have h7' : q'.1 = .maxPenaltyReached := by rw [h6] at h7; exact h7
      exact solveQP_code hq' (Or.inr h7')
    refine ⟨?_, fun h => absurd h hno⟩
    rw [h6]
    have hs : q'.2.statk = s4.statk ∧ ∀ x, s4.xk = some x → q'.2.xk = s4.xk := by
      simp only [solveQP, bind_eq_ok] at hq'
      obtain ⟨v, hv, s6, h6, hw⟩ := hq'
      obtain ⟨_, _, _, _, _, _, hv2⟩ := subSolve_inv hv
      rw [hv2] at h6
      have g6 : s6.statk = s4.statk ∧ ∀ x, s4.xk = some x → s6.xk = s4.xk := by
        simp only [afterSolve, bind_eq_ok] at h6
        obtain ⟨_, _, _, _, _, _, _, _, _, _, h6⟩ := h6
        injection h6 with h6
        rw [← h6]
        refine ⟨rfl, fun x hx => ?_⟩
        show some (s4.xk.getD _) = _
        rw [hx]
        rfl
      split at hw
      · injection hw with hw
        rw [← hw]
        exact g6
      · simp only [bind_eq_ok] at hw
        obtain ⟨_, _, hw⟩ := hw
        injection hw with hw
        rw [← hw] at hne
        exact absurd rfl hne
    have hx : ∃ x, s4.xk = some x := by
      obtain ⟨x, A, B, C, p, l, st, t, i, _, _, _, ⟨u, hu, hu2⟩, hpe, _, _, hs1⟩ := advance_inv h1
      have x1 : s1.xk = some x := by rw [hs1, hpe]
      have x2 : s2.xk = s1.xk := by
        obtain ⟨r, hh, _, hr2, ⟨_, h'⟩ | ⟨_, h'⟩⟩ := dynamicPenalty_inv h2
        · rw [h', hr2]
        · rw [bump_xk h', hr2]
      refine ⟨x, ?_⟩
      rcases h4 with ⟨_, rfl⟩ | ⟨_, _, h4⟩
      · rw [v3.2.1, x2, x1]
      · rw [bump_xk h4, v3.2.1, x2, x1]
    obtain ⟨x, hx⟩ := hx
    exact fin (q'.2.say (.msg q'.1)) hs.1 (hs.2 x hx)

end

variable {K : Type} [Field K] [LinearOrder K] [IsStrictOrderedRing K]
variable {e : Env (Ext K)} {o : Obj (Ext K)} {d : Data (Ext K)} {n : Dims} {P : Prob K n} {x0 : Fin n.nV → K} {r0 f : K}
variable {off : Nat} {s : St (Ext K)} {r : K} {b : Bool} {x p : Fin n.nV → K} {a : K} {y : Fin (off + n.nA) → K}

theorem stationarityCheck_fails (hd : DataIs d n P off) {v : Fin n.nV → K} (hv : s.statk = some (ev v)) {ts : K} (h0 : 0 < ts)
    (ht : d.opts.statTol = fin ts) (h : stationarityCheck d s = .ok false) : ∃ i, ts ≤ |v i| := by
  obtain ⟨m, h1, _, h3⟩ := C06_finite (List.ofFn v)
  rw [List.length_ofFn] at h1
  simp only [stationarityCheck, hd.dims, hv, ht, initd_some, deref_some, ok_bind, ev, h1] at h
  injection h with h
  have hm : ts ≤ m := by simpa using h
  rcases h3 with ⟨_, h3⟩ | ⟨w, hw, h3⟩
  · rw [h3] at hm
    exact absurd h0 (not_lt.mpr hm)
  · obtain ⟨i, rfl⟩ := List.mem_ofFn.mp hw
    exact ⟨i, by rw [h3]; exact hm⟩

/-- the rule of Leyffer either leaves everything but its memory alone, or updates the penalty parameter because the iterate is not
complementary; it is never applied if it is switched off -/
theorem dynamic_why {s' : St (Ext K)} {t k : Nat} (hl : Live d.opts s t k) (h : dynamicPenalty d s = .ok s') :
    Live d.opts s' t k ∨ (Live d.opts s' t (k + 1) ∧ complementarityCheck d s = .ok false ∧ toSizeT d.opts.nDyn ≠ 0) := by
  obtain ⟨q, hh, hq, hr, ⟨_, h'⟩ | ⟨hb, h'⟩⟩ := dynamicPenalty_inv h
  · subst h'
    exact Or.inl (hl.congr (by rw [hr]) (by rw [hr]) (by rw [hr]) (by rw [hr]) (by rw [hr]))
  · have hl2 : Live d.opts q.2 t k := hl.congr (by rw [hr]) (by rw [hr]) (by rw [hr]) (by rw [hr]) (by rw [hr])
    refine Or.inr ⟨(hl2.bump h').1, leyffer_fires hq hb, fun h0 => ?_⟩
    simp only [leyfferCheckPositive, h0, if_true] at hq
    injection hq with hq
    rw [← hq] at hb
    cases hb

/-- the last pass of a run without success; `j` is the number of penalty updates in it -/
theorem pass_unfinished (hd : DataIs d n P off) (hf : d.opts.factor = fin f) (f0 : f ≠ 0)
    (hs : XSt d n P off s r b x p a y) (hb : OutB s b) {t k : Nat} (hl : Live d.opts s t k)
    {ts tc : K} (ht0 : 0 < ts) (hts : d.opts.statTol = fin ts) (htc : d.opts.complTol = fin tc) {q : RV × St (Ext K)}
    (h : pass e d s = .ok (.inr q)) (hq : q.1 ≠ .successfulReturn) :
    ∃ j ≤ 2, Live d.opts q.2 (t + 1) (k + j) ∧
      (j = 0 → ∃ i, ts ≤ |P.stat d.sparse r b (x + a • p) y i|) ∧
      (0 < j → tc ≤ P.phi (x + a • p)) ∧
      (j = 2 ∨ (j = 1 ∧ toSizeT d.opts.nDyn = 0) → ∀ i, |P.stat d.sparse r b (x + a • p) y i| < ts) ∧
      (toSizeT d.opts.nDyn = 0 → j ≤ 1) ∧
      (q.1 = .maxPenaltyReached → (d.opts.maxRho <. penalty d.opts (k + j)) = true) ∧
      (q.1 = .maxIterationsReached → d.opts.maxIter < ((t + 1 : Nat) : Int)) ∧
      (q.1 = .maxIterationsReached ∨ q.1 = .maxPenaltyReached →
        q.2.yk = some (ev y) ∧ q.2.ykA = some (ev (yLin y)) ∧
        q.2.statk = some (ev (P.stat d.sparse r b (x + a • p) y))) := by
  obtain ⟨s1, s2, s3, h1, h2, h3, ⟨_, _, q', hq', hqq⟩ | ⟨s4, t', rho, h4, ht', hrho, h5⟩⟩ := pass_inv h
  · injection hqq with hqq
    subst hqq
    exact absurd (accept_inv hq').choose_spec.choose_spec.2.1 hq
  obtain ⟨x1, v1, o1, _⟩ := advance_x hd hs h1
  obtain ⟨l1, _⟩ := hl.advance h1
  have b1 : OutB s1 b := by unfold OutB; rw [o1]; exact hb
  obtain ⟨r2, b2, x2, _, _⟩ := dynamic_x hd hf f0 x1 b1 h2
  obtain ⟨e3, x3⟩ := lin_x hd x2 h3
  have v2 : s2.statk = s1.statk := by
    obtain ⟨q, hh, _, hr, ⟨_, h'⟩ | ⟨_, h'⟩⟩ := dynamicPenalty_inv h2
    · rw [h', hr]
    · rw [bump_statk h', hr]
  have v3 : s3.statk = some (ev (P.stat d.sparse r b (x + a • p) y)) := by rw [e3]; exact v2.trans v1
  -- the state at the limit tests
  have key : ∃ j ≤ 2, Live d.opts s4 (t + 1) (k + j) ∧
      (j = 0 → ∃ i, ts ≤ |P.stat d.sparse r b (x + a • p) y i|) ∧
      (0 < j → tc ≤ P.phi (x + a • p)) ∧
      (j = 2 ∨ (j = 1 ∧ toSizeT d.opts.nDyn = 0) → ∀ i, |P.stat d.sparse r b (x + a • p) y i| < ts) ∧
      (toSizeT d.opts.nDyn = 0 → j ≤ 1) ∧
      s4.yk = some (ev y) ∧ s4.ykA = some (ev (yLin y)) ∧ s4.statk = s3.statk := by
    rcases dynamic_why l1 h2 with l2 | ⟨l2, hc, hn⟩
    · obtain ⟨l3, _⟩ := l2.lin h3
      rcases h4 with ⟨hst, rfl⟩ | ⟨hst, hco, h4⟩
      · exact ⟨0, by omega, l3, fun _ => stationarityCheck_fails hd v3 ht0 hts hst, by omega, by omega, by omega,
          x3.yk, x3.ykA, rfl⟩
      · have x4 := (bump_x hd hf f0 x3 h4).1
        have hphi := complementarityCheck_x hd x3.xk htc hco
        exact ⟨1, by omega, (l3.bump h4).1, by omega, fun _ => by simpa using hphi,
          fun _ => stationarityCheck_x hd v3 hts hst, by omega, x4.yk, x4.ykA, bump_statk h4⟩
    · obtain ⟨l3, _⟩ := l2.lin h3
      have hphi := complementarityCheck_x hd x1.xk htc hc
      have hphi : tc ≤ P.phi (x + a • p) := by simpa using hphi
      rcases h4 with ⟨hst, rfl⟩ | ⟨hst, hco, h4⟩
      · exact ⟨1, by omega, l3, by omega, fun _ => hphi, fun h => absurd (h.resolve_left (by omega)).2 hn,
          by omega, x3.yk, x3.ykA, rfl⟩
      · have x4 := (bump_x hd hf f0 x3 h4).1
        exact ⟨2, by omega, (l3.bump h4).1, by omega, fun _ => hphi, fun _ => stationarityCheck_x hd v3 hts hst,
          fun h => absurd h hn, x4.yk, x4.ykA, bump_statk h4⟩
  obtain ⟨j, hj, l4, k1, k2, k3, k4, y4, ya4, v4⟩ := key
  have et : t' = ((t + 1 : Nat) : Int) := by
    have := l4.total.symm.trans ht'; injection this with this; exact this.symm
  have er : rho = penalty d.opts (k + j) := by
    have := l4.rho.symm.trans hrho; injection this with this; exact this.symm
  subst et er
  rcases h5 with ⟨hgt, h5⟩ | ⟨hle, hgt, h5⟩ | ⟨hle, hgt, h5⟩
  · injection h5 with h5
    subst h5
    exact ⟨j, hj, l4, k1, k2, k3, k4, (fun h => nomatch h), fun _ => hgt, fun _ => ⟨y4, ya4, v4.trans v3⟩⟩
  · injection h5 with h5
    subst h5
    exact ⟨j, hj, l4, k1, k2, k3, k4, fun _ => hgt, (fun h => nomatch h), fun _ => ⟨y4, ya4, v4.trans v3⟩⟩
  · rcases l4.next h5 with ⟨s', hs', _⟩ | ⟨q', hq', _, l5, _, u, w, hw, _⟩
    · cases hs'
    injection hq' with hq'
    subst hq'
    have hno : q.1 ≠ .maxIterationsReached ∧ q.1 ≠ .maxPenaltyReached :=
      ⟨fun h => hq (solveQP_own (q := (q.1, w)) hw (Or.inr (Or.inl h))), fun h => hq (solveQP_own (q := (q.1, w)) hw (Or.inr (Or.inr h)))⟩
    exact ⟨j, hj, l5, k1, k2, k3, k4, fun h => absurd h hno.2, fun h => absurd h hno.1,
      fun h => (h.elim hno.1 hno.2).elim⟩

end LCQ
