import Verif.Lemmas.ModeSwitch
import Verif.Lemmas.Again

/-!
# Loads, mode switches and runs in any order
-/

set_option linter.unusedSectionVars false

namespace LCQ
open Scalar

variable {α : Type} [Scalar α] {e : Env α} {n : Dims} {o : Obj α} {d : Data α}

/-- the members a run in sparse mode does not write, and those a run in dense mode does not write -/
def Apart (d : Data α) (s s' : St α) : Prop :=
  (d.sparse = true → s'.Qk = s.Qk) ∧ (d.sparse = false → s'.idxC = s.idxC)

theorem Apart.refl (s : St α) : Apart d s s := ⟨fun _ => rfl, fun _ => rfl⟩

theorem Apart.trans {s s' s'' : St α} (h : Apart d s s') (h' : Apart d s' s'') : Apart d s s'' :=
  ⟨fun hs => (h'.1 hs).trans (h.1 hs), fun hs => (h'.2 hs).trans (h.2 hs)⟩

theorem setQk_apart {s s' : St α} (h : setQk d s = .ok s') : Apart d s s' := by
  simp only [setQk, bind_eq_ok] at h
  obtain ⟨_, _, _, _, h⟩ := h
  split at h
  · rename_i hs
    simp only [bind_eq_ok] at h
    obtain ⟨_, _, _, _, _, _, h⟩ := h
    injection h with h
    subst h
    exact ⟨fun _ => rfl, by simp [hs]⟩
  · rename_i hs
    simp only [bind_eq_ok] at h
    obtain ⟨_, _, _, _, _, _, _, _, h⟩ := h
    injection h with h
    subst h
    exact ⟨fun h => absurd h hs, fun _ => rfl⟩

theorem updateQk_apart {s s' : St α} (h : updateQk d s = .ok s') : Apart d s s' := by
  simp only [updateQk, bind_eq_ok] at h
  obtain ⟨_, _, _, _, h⟩ := h
  split at h
  · rename_i hs
    simp only [bind_eq_ok] at h
    obtain ⟨_, _, _, _, _, _, h⟩ := h
    injection h with h
    subst h
    exact ⟨fun _ => rfl, by simp [hs]⟩
  · rename_i hs
    simp only [bind_eq_ok] at h
    obtain ⟨_, _, _, _, _, _, _, _, h⟩ := h
    injection h with h
    subst h
    exact ⟨fun h => absurd h hs, fun _ => rfl⟩

theorem bump_apart {s s' : St α} (h : bump d s = .ok s') : Apart d s s' := by
  simp only [bump, updatePenalty, bind_eq_ok] at h
  obtain ⟨s2, ⟨r, _, s1, h1, h2⟩, s3, h3, h⟩ := h
  obtain ⟨_, rfl⟩ := updateGTilde_inv h2
  obtain ⟨_, _, _, _, _, rfl⟩ := updateOuterIter_inv h3
  injection h with h
  subst h
  have := updateQk_apart h1
  exact ⟨this.1, this.2⟩

theorem solveQP_apart {s : St α} {init : Bool} {r : RV × St α} (h : solveQP e d s init = .ok r) : Apart d s r.2 := by
  obtain ⟨q, _, _, _, _, _, _, _, _, _, _, _, _, _, _, _, _, _, _, _, _, hr⟩ := solveQP_inv h
  rw [hr]
  exact ⟨fun _ => rfl, fun _ => rfl⟩

theorem advance_apart {s s' : St α} (h : advance d s = .ok s') : Apart d s s' := by
  obtain ⟨_, _, _, _, _, _, _, _, _, _, _, _, _, rfl, _, _, rfl⟩ := advance_inv h
  exact ⟨fun _ => rfl, fun _ => rfl⟩

theorem main_apart {fuel : Nat} {s : St α} {q : RV × St α} (h : mainLoop e d fuel s = .ok (some q)) : Apart d s q.2 := by
  refine main_keep (fun t => Apart d s t) ?_ ?_ ?_ ?_ ?_ ?_ ?_ ?_ (Apart.refl s) h
  · intro s s' hs h; exact hs.trans (advance_apart h)
  · intro s _ hs; exact hs
  · intro s s' hs h; exact hs.trans (bump_apart h)
  · intro s _ hs; exact hs
  · intro s r hs h
    obtain ⟨_, _, _, _, hr⟩ := accept_inv h
    rw [hr]; exact hs
  · intro s r hs h; exact hs.trans (solveQP_apart h)
  · intro s _ hs; exact hs
  · intro s _ _ _ _ hs; exact hs

theorem first_apart {s : St α} {q : Step α} (h : firstStep e d s = .ok q) :
    (∀ s', q = .inl s' → Apart d s s') ∧ (∀ p, q = .inr p → Apart d s p.2) := by
  simp only [firstStep, bind_eq_ok] at h
  obtain ⟨s1, h1, q', hq, h⟩ := h
  obtain ⟨gk, rfl⟩ := firstGradient_inv h1
  have a1 : Apart d s q'.2 := by
    have := solveQP_apart hq
    exact ⟨this.1, this.2⟩
  split at h
  · injection h with h
    subst h
    exact ⟨by simp, fun p hp => by injection hp with hp; rw [← hp]; exact a1⟩
  · simp only [bind_eq_ok] at h
    obtain ⟨s2, h2, rho, _, h⟩ := h
    injection h with h
    subst h
    have a2 := a1.trans (setQk_apart h2)
    exact ⟨fun p hp => by injection hp with hp; rw [← hp]; exact ⟨a2.1, a2.2⟩, by simp⟩

/-- a run that passed the initialisation leaves the dense Hessian (sparse mode) or the recorded positions (dense mode) alone -/
theorem run_apart {fuel : Nat} {r i : RV × Obj α} (hr : runSolver e fuel o = .ok (some r))
    (hi : initializeSolver e o = .ok i) (h1 : i.1 = .successfulReturn) : Apart o.d o.s r.2.s := by
  obtain ⟨i', hi', h⟩ := runSolver_inv hr
  rw [hi] at hi'
  injection hi' with hi'
  subst hi'
  obtain ⟨nd, bo, l, u, sub, y, w, gt, pc, gp, h2⟩ := initializeSolver_ok hi h1
  have hd : i.2.d.sparse = o.d.sparse := by rw [h2]
  have h3 : Apart o.d o.s i.2.s := by rw [h2]; exact ⟨fun _ => rfl, fun _ => rfl⟩
  have key : Apart i.2.d i.2.s r.2.s := by
    rcases h with ⟨h, _⟩ | ⟨_, _, h | ⟨s, hs, h⟩⟩
    · exact absurd h1 h
    · exact (first_apart h).2 _ rfl
    · exact ((first_apart hs).1 _ rfl).trans (main_apart h)
  refine h3.trans ⟨?_, ?_⟩
  · rw [← hd]; exact key.1
  · rw [← hd]; exact key.2

/-- sizes of the members of a loaded object that may have been run before, in whichever mode -/
structure Kept (o : Obj α) (n : Dims) : Prop extends Built o n where
  g : Has o.d.g n.nV
  Q : MatOK o.d.sparse o.d.Q o.d.Qs n.nV n.nV
  C : MatOK o.d.sparse o.d.C o.d.Cs n.nV n.nV
  A : MatOK o.d.sparse o.d.A o.d.As n.nA n.nV
  L : MatOK o.d.sparse o.d.L o.d.Ls n.nComp n.nV
  R : MatOK o.d.sparse o.d.R o.d.Rs n.nComp n.nV
  lbA : Has o.d.lbA n.nA
  ubA : Has o.d.ubA n.nA
  xk : Has o.s.xk n.nV
  yk : HasOpt o.s.yk (n.nV + n.nA)

theorem Kept.ready (h : Kept o n) (hi : o.d.sparse = true → o.s.idxC = []) : Ready o n :=
  { h with
    Qk := fun _ => h.Qk
    idx := hi }

theorem Ready.kept (h : Ready o n) (hC : n.nComp ≠ 0) (hQ : Has o.s.Qk (n.nV * n.nV)) : Kept o n :=
  { h with
    nComp := hC
    Qk := hQ }

/-- a dense load -/
theorem Built.loadKept (hb : Built o n) {a : DenseArgs α} {o' : Obj α} (hf : a.Fits n)
    (hp : a.lbL = none ↔ a.lbR = none) (hl : loadDense e o a = .ok (.successfulReturn, o')) :
    Kept o' n ∧ o'.d.opts = o.d.opts ∧ o'.d.sparse = false ∧ o'.s.idxC = o.s.idxC := by
  obtain ⟨h1, h2, h3⟩ := hb.load hf hp hl
  refine ⟨h1.kept hb.nComp (h1.Qk h3), h2, h3, ?_⟩
  rcases loadDense_ok (e := e) hb.dims hb.nV hb.nComp hf with ⟨_, _, h'⟩ | ⟨_, _, _, h'⟩ | ⟨_, _, _, _, h'⟩ |
    ⟨_, hA, _, _, Q, g, L, R, hQ, hg, hL, hR, lQ, lg, lL, lR, h'⟩
  · rw [h'] at hl; injection hl with hl; injection hl with hl _; cases hl
  · rw [h'] at hl; injection hl with hl; injection hl with hl _; cases hl
  · rw [h'] at hl; injection hl with hl; injection hl with hl _; cases hl
  · rw [h'] at hl
    injection hl with hl
    injection hl with _ hl
    subst hl
    rfl

/-- a sparse load -/
theorem Built.loadSparseKept (hb : Built o n) {a : SparseArgs α} {o' : Obj α} (hf : a.Fits n)
    (hp : a.lbL = none ↔ a.lbR = none) (hl : LCQ.loadSparse e o a = .ok (.successfulReturn, o')) :
    Kept o' n ∧ o'.d.opts = o.d.opts ∧ o'.d.sparse = true ∧ o'.s.idxC = o.s.idxC := by
  obtain ⟨Q, L, R, C, hQ, hL, hR, iQ, iL, iR, hCs, hCi, h'⟩ := loadSparse_ok (e := e) hb.dims hb.nV hb.nComp hf
  rcases h' with ⟨_, _, h'⟩ | ⟨_, _, _, h'⟩ | ⟨_, _, _, _, h'⟩ | ⟨_, _, g, c, hg, lg, hc, h'⟩
  · rw [h'] at hl; injection hl with hl; injection hl with hl _; cases hl
  · rw [h'] at hl; injection hl with hl; injection hl with hl _; cases hl
  · rw [h'] at hl; injection hl with hl; injection hl with hl _; cases hl
  · rw [h'] at hl
    injection hl with hl
    injection hl with _ hl
    subst hl
    refine ⟨?_, rfl, rfl, rfl⟩
    exact { hb with
      g := ⟨_, rfl, by simpa using lg⟩
      Q := ⟨_, rfl, iQ.trim⟩
      C := ⟨_, rfl, (hCi c hc).1⟩
      A := ⟨_, rfl, stackSparse_is iL.trim iR.trim hf.A⟩
      L := ⟨_, rfl, iL.trim⟩
      R := ⟨_, rfl, iR.trim⟩
      lbA := ⟨_, rfl, by simp [orFill_length hf.lbA, orFill_length hf.lbL, orFill_length hf.lbR, Dims.nA]; omega⟩
      ubA := ⟨_, rfl, by simp [orFill_length hf.ubA, orFill_length hf.ubL, orFill_length hf.ubR, Dims.nA]; omega⟩
      lbTmp := hasOpt_orElse (hasOpt_take hf.lb) hb.lbTmp
      ubTmp := hasOpt_orElse (hasOpt_take hf.ub) hb.ubTmp
      pair := bndMem_pair hf.lbL hf.lbR hp hb.pair
      xk := ⟨_, rfl, orFill_length hf.x0⟩
      yk := hasOpt_take hf.y0 }

/-- switching to sparse mode -/
theorem Kept.toSparse (h : Kept o n) :
    ∃ o', switchToSparse o = .ok (.successfulReturn, o') ∧ Kept o' n ∧ o'.d.sparse = true ∧ o'.d.opts = o.d.opts ∧ o'.s = o.s := by
  unfold switchToSparse
  cases hs : o.d.sparse with
  | true => exact ⟨o, rfl, h, hs, rfl, rfl⟩
  | false =>
    have hd : ∀ {B : Option (List α)} {S : Option (CSC α)} {m k : Nat}, MatOK o.d.sparse B S m k → ∃ b, B = some b ∧ b.length = m * k := by
      intro B S m k hm
      simpa [MatOK, hs, Has] using hm
    obtain ⟨Q, hQ, lQ⟩ := hd h.Q
    obtain ⟨A, hA, lA⟩ := hd h.A
    obtain ⟨L, hL, lL⟩ := hd h.L
    obtain ⟨R, hR, lR⟩ := hd h.R
    obtain ⟨C, hC, lC⟩ := hd h.C
    obtain ⟨Qs, eQ, vQ⟩ := dnsToCsc_total lQ
    obtain ⟨As, eA, vA⟩ := dnsToCsc_total lA
    obtain ⟨Ls, eL, vL⟩ := dnsToCsc_total lL
    obtain ⟨Rs, eR, vR⟩ := dnsToCsc_total lR
    obtain ⟨Cs, eC, vC⟩ := dnsToCsc_total lC
    rw [if_neg (by simp), h.dims, initd_some, ok_bind, hQ, deref_some, ok_bind, eQ, ok_bind, hA, deref_some, ok_bind,
      show n.nC + 2 * n.nComp = n.nA from rfl, eA, ok_bind, hL, deref_some, ok_bind, eL, ok_bind, hR, deref_some, ok_bind, eR,
      ok_bind, hC, deref_some, ok_bind, eC, ok_bind]
    refine ⟨_, rfl, ?_, rfl, rfl, rfl⟩
    exact { h with
      Q := ⟨_, rfl, vQ⟩
      A := ⟨_, rfl, vA⟩
      L := ⟨_, rfl, vL⟩
      R := ⟨_, rfl, vR⟩
      C := ⟨_, rfl, vC⟩ }

/-- switching to dense mode -/
theorem Kept.toDense (h : Kept o n) :
    ∃ o', switchToDense o = .ok (.successfulReturn, o') ∧ Kept o' n ∧ o'.d.sparse = false ∧ o'.d.opts = o.d.opts ∧ o'.s = o.s := by
  unfold switchToDense
  cases hs : o.d.sparse with
  | false => exact ⟨o, rfl, h, hs, rfl, rfl⟩
  | true =>
    have hd : ∀ {B : Option (List α)} {S : Option (CSC α)} {m k : Nat}, MatOK o.d.sparse B S m k →
        ∃ T b, S = some T ∧ cscToDns T = .ok (some b) ∧ b.length = m * k := by
      intro B S m k hm
      have : ∃ T, S = some T ∧ T.Valid ∧ T.m = m ∧ T.n = k := by simpa [MatOK, hs] using hm
      obtain ⟨T, hT, hv, rfl, rfl⟩ := this
      rcases cscToDns_ok T hv.toValidPtr with ⟨_, h⟩ | ⟨⟨k, hk, hn⟩, _⟩
      · exact ⟨T, _, hT, h, by simp⟩
      · exact absurd (hv.rows k hk) hn
    obtain ⟨Qs, Q, hQ, eQ, lQ⟩ := hd h.Q
    obtain ⟨As, A, hA, eA, lA⟩ := hd h.A
    obtain ⟨Ls, L, hL, eL, lL⟩ := hd h.L
    obtain ⟨Rs, R, hR, eR, lR⟩ := hd h.R
    obtain ⟨Cs, C, hC, eC, lC⟩ := hd h.C
    rw [if_neg (by simp), hQ, deref_some, ok_bind, eQ, ok_bind, hA, deref_some, ok_bind,
      eA, ok_bind, hL, deref_some, ok_bind, eL, ok_bind, hR, deref_some, ok_bind, eR,
      ok_bind, hC, deref_some, ok_bind, eC, ok_bind]
    dsimp only
    rw [if_neg (by simp)]
    refine ⟨_, rfl, ?_, rfl, rfl, rfl⟩
    exact { h with
      Q := ⟨_, rfl, lQ⟩
      A := ⟨_, rfl, lA⟩
      L := ⟨_, rfl, lL⟩
      R := ⟨_, rfl, lR⟩
      C := ⟨_, rfl, lC⟩ }

/-- the choice of a qpOASES solver is refused exactly when the mode does not fit; then only two numbers are written -/
theorem choose_refused (h : Kept o n) (hq : (o.d.opts.qpSolver = 0 ∧ o.d.sparse = true) ∨ (o.d.opts.qpSolver = 1 ∧ o.d.sparse = false)) :
    ∃ nd bo, initializeSolver e o = .ok (.denseSparseMissmatch, { o with d := { o.d with nDuals := nd, boxOff := bo } }) := by
  have : ∃ nd bo, chooseSolver e o = .ok (.denseSparseMissmatch, { o with d := { o.d with nDuals := nd, boxOff := bo } }) := by
    unfold chooseSolver
    rw [h.dims, initd_some, ok_bind]
    rcases hq with ⟨h0, hs⟩ | ⟨h0, hs⟩
    · rw [if_pos h0]
      dsimp only
      rw [if_pos hs]
      exact ⟨_, _, rfl⟩
    · rw [if_neg (by omega), if_pos h0]
      dsimp only
      rw [if_pos (by simp [hs])]
      exact ⟨_, _, rfl⟩
  obtain ⟨nd, bo, hc⟩ := this
  exact ⟨nd, bo, by rw [initializeSolver, hc, ok_bind, if_pos (by simp)]⟩

/-- a run with one of the qpOASES solvers -/
theorem Kept.run (h : Kept o n) (hi : o.d.sparse = true → o.d.opts.qpSolver = 1 → o.s.idxC = [])
    (hq : o.d.opts.qpSolver = 0 ∨ o.d.opts.qpSolver = 1) {N : Int} (he : AnsBnd e N) (hs : Small o.d.opts N) (fuel : Nat) :
    ∃ q, runSolver e fuel o = .ok q ∧ ∀ r, q = some r →
      Kept r.2 n ∧ r.2.d.opts = o.d.opts ∧ r.2.d.sparse = o.d.sparse ∧
      ((o.d.sparse = true → o.d.opts.qpSolver = 0) → r.2.s.idxC = o.s.idxC) ∧
      ((r.1 = .denseSparseMissmatch ∧ o.d.sparse = decide (o.d.opts.qpSolver = 0)) ∨
       (o.d.sparse = decide (o.d.opts.qpSolver = 1) ∧ r.2.d.nDuals = some (n.nV + n.nA) ∧ Has r.2.s.yk (n.nV + n.nA) ∧
         ∃ t, r.2.s.algo = some t)) := by
  by_cases hm : (o.d.opts.qpSolver = 0 ∧ o.d.sparse = true) ∨ (o.d.opts.qpSolver = 1 ∧ o.d.sparse = false)
  · obtain ⟨nd, bo, hc⟩ := choose_refused (e := e) h hm
    refine ⟨_, by rw [runSolver, hc, ok_bind, if_pos (by simp)], ?_⟩
    rintro r ⟨⟩
    refine ⟨{ h with dims := h.dims }, rfl, rfl, fun _ => rfl, Or.inl ⟨rfl, ?_⟩⟩
    rcases hm with ⟨a, b⟩ | ⟨a, b⟩ <;> simp [a, b]
  · have hmode : o.d.sparse = decide (o.d.opts.qpSolver = 1) := by
      push Not at hm
      rcases hq with h0 | h0
      · have := hm.1 h0
        simp [h0, this]
      · have := hm.2 h0
        simp [h0, this]
    have hrd : Ready o n := h.ready fun hsp => hi hsp (by rw [hmode] at hsp; simpa using hsp)
    obtain ⟨q, h1, h2⟩ := runSolver_after hrd he hs (by omega) fuel
    refine ⟨q, h1, ?_⟩
    rintro r rfl
    obtain ⟨i, hi', hc⟩ := h2 r rfl
    have hok : i.1 = .successfulReturn ∧ ∃ off, DataOK r.2.d n off ∧ After r.2.d n off r.2.s ∧
          (o.d.opts.qpSolver = 0 → r.2.d.sparse = false ∧ off = n.nV) ∧ r.2.d.lbL = o.d.lbL ∧ r.2.d.lbR = o.d.lbR ∧
          r.2.d.lbTmp = none ∧ r.2.d.ubTmp = none ∧ r.2.d.opts = o.d.opts := by
      rcases hc with ⟨hne, _⟩ | hc
      · exfalso
        obtain ⟨hch, _⟩ := initializeSolver_fail hi' hne
        apply hne
        have hbx := setBoxes_ok (d := { o.d with
          nDuals := some (n.nV + n.nC + 2 * n.nComp), boxOff := some n.nV }) h.dims h.nV h.lbTmp h.ubTmp
        obtain ⟨l, u, hb, _⟩ := hbx
        rw [chooseSolver, h.dims, initd_some, ok_bind] at hch
        rcases hq with h0 | h0
        · rw [if_pos h0] at hch
          dsimp only at hch
          rw [if_neg (by simp [hmode, h0]), hb, ok_bind, if_neg (by simp)] at hch
          simp only [bind_eq_ok] at hch
          obtain ⟨_, _, _, _, _, _, _, _, hch⟩ := hch
          injection hch with hch
          rw [← hch]
        · rw [if_neg (by omega), if_pos h0] at hch
          dsimp only at hch
          rw [if_neg (by simp [hmode, h0]), hb, ok_bind, if_neg (by simp)] at hch
          simp only [bind_eq_ok] at hch
          obtain ⟨_, _, _, _, _, _, _, _, hch⟩ := hch
          injection hch with hch
          rw [← hch]
      · exact hc
    obtain ⟨hok, off, hd, hs', _, hL, hR, hlt, hut, hopt⟩ := hok
    have hap := run_apart h1 hi' hok
    have hsp : r.2.d.sparse = o.d.sparse := by
      rw [run_data h1 hi' hok]
      obtain ⟨_, _, _, _, _, _, _, _, _, _, h2⟩ := initializeSolver_ok hi' hok
      rw [h2]
    have hoff : off = n.nV := by
      obtain ⟨j, hj, hj'⟩ := initializeSolver_total (e := e) hrd
      rw [hi'] at hj
      injection hj with hj
      subst hj
      obtain ⟨_, _, _, _, _, _, _, _, _, _, hw, _⟩ := hj' hok
      rcases hd.sub with ⟨_, _, _, h⟩ | ⟨_, _, _, h⟩ | ⟨Q, A, hsub, _⟩
      · exact h
      · exact h
      · rw [run_data h1 hi' hok] at hsub
        have := (hw ⟨Q, A, hsub⟩).1
        omega
    subst hoff
    refine ⟨?_, hopt, hsp, ?_, Or.inr ⟨hmode, hd.nDuals, hs'.yk, run_algo h1 hi' hok⟩⟩
    · exact { hd, hs' with
        nV := h.nV
        nComp := h.nComp
        lbTmp := by rw [hlt]; exact Or.inl rfl
        ubTmp := by rw [hut]; exact Or.inl rfl
        pair := by rw [hL, hR]; exact h.pair
        yk := Or.inr hs'.yk
        Qk := by
          cases hs2 : o.d.sparse with
          | true => rw [hap.1 hs2]; exact h.Qk
          | false => exact hs'.Qk (hsp.trans hs2)
        work := by rw [hopt]; omega }
    · intro hsd
      cases hs2 : o.d.sparse with
      | true =>
        have := hsd hs2
        rw [hmode] at hs2
        simp at hs2
        omega
      | false => exact hap.2 hs2

end LCQ
