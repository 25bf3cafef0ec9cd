import Verif.Lemmas.Reload
import Verif.Lemmas.ExactHead
import Verif.Lemmas.ExactSub

/-!
# Two objects which hold the same problem in different form
-/

set_option linter.unusedSectionVars false

namespace LCQ
open Scalar Ext
open scoped Matrix

section anyArith
variable {α : Type} [Scalar α] {n : Dims} {o : Obj α} {e : Env α}

/-- dense qpOASES with dense data, or sparse qpOASES with sparse data -/
def Matched (o : Obj α) : Prop :=
  (o.d.opts.qpSolver = 0 ∧ o.d.sparse = false) ∨ (o.d.opts.qpSolver = 1 ∧ o.d.sparse = true)

theorem chooseSolver_qpo (h : Ready o n) (hm : Matched o) : ∃ sub, QpoDims n sub ∧
    chooseSolver e o = .ok (.successfulReturn, { o with d := { o.d with
        nDuals := some (n.nV + n.nA)
        boxOff := some n.nV
        lb := some (orFill o.d.lbTmp n.nV (-. inf))
        ub := some (orFill o.d.ubTmp n.nV inf)
        sub := some sub } }) := by
  have e1 : n.nV + n.nC + 2 * n.nComp = n.nV + n.nA := by simp [Dims.nA]; omega
  have b1 := setBox_val (d := { o.d with nDuals := some (n.nV + n.nC + 2 * n.nComp), boxOff := some n.nV })
    h.dims h.nV h.lbTmp (-. inf)
  have b2 := setBox_val (d := { o.d with nDuals := some (n.nV + n.nC + 2 * n.nComp), boxOff := some n.nV })
    h.dims h.nV h.ubTmp inf
  have hb : setBoxes { o.d with nDuals := some (n.nV + n.nC + 2 * n.nComp), boxOff := some n.nV } =
      .ok (.successfulReturn, { o.d with
        nDuals := some (n.nV + n.nC + 2 * n.nComp)
        boxOff := some n.nV
        lb := some (orFill o.d.lbTmp n.nV (-. inf))
        ub := some (orFill o.d.ubTmp n.nV inf) }) := by
    rw [setBoxes, b1.1, ok_bind, if_neg (by simp), b2.1, ok_bind, if_neg (by simp)]
  have hA := h.A
  have hQ := h.Q
  rcases hm with ⟨hq, hs⟩ | ⟨hq, hs⟩
  · rw [MatOK, if_neg (by simp [hs])] at hA hQ
    obtain ⟨A, hA, lA⟩ := hA
    obtain ⟨Q, hQ, lQ⟩ := hQ
    refine ⟨.dense n.nV n.nA Q A, .dense Q A, ?_⟩
    rw [chooseSolver, h.dims, initd_some, ok_bind, if_pos hq]
    dsimp only
    rw [if_neg (by simp [hs]), hb, ok_bind, if_neg (by simp), hQ, deref_some, ok_bind, copyN_ok lQ, ok_bind, hA, deref_some,
      ok_bind, copyN_ok lA, ok_bind, e1]
  · rw [MatOK, if_pos hs] at hA hQ
    obtain ⟨A, hA, vA, mA, nA⟩ := hA
    obtain ⟨Q, hQ, vQ, mQ, nQ⟩ := hQ
    have c1 := qpCopy_ok vQ n.nV
    have c2 := qpCopy_ok vA n.nA
    rw [nQ] at c1
    rw [nA] at c2
    refine ⟨.sparse n.nV n.nA
      { m := n.nV, n := n.nV, nzmax := Q.P n.nV, p := Q.p, i := Q.i.take (Q.P n.nV), x := Q.x.take (Q.P n.nV) }
      { m := n.nA, n := n.nV, nzmax := A.P n.nV, p := A.p, i := A.i.take (A.P n.nV), x := A.x.take (A.P n.nV) },
      .sparse _ _, ?_⟩
    rw [chooseSolver, h.dims, initd_some, ok_bind, if_neg (by omega), if_pos hq]
    dsimp only
    rw [if_neg (by simp [hs]), hb, ok_bind, if_neg (by simp), hQ, deref_some, ok_bind, c1, ok_bind, hA, deref_some, ok_bind,
      c2, ok_bind, e1]

theorem initializeSolver_qpo (h : Ready o n) (hm : Matched o) : ∃ i sub, QpoDims n sub ∧
    initializeSolver e o = .ok i ∧ i.1 = .successfulReturn ∧ i.2.s.yk = o.s.yk ∧ i.2.d.sub = some sub ∧
    i.2.d.lb = some (orFill o.d.lbTmp n.nV (-. inf)) ∧ i.2.d.ub = some (orFill o.d.ubTmp n.nV inf) ∧
    i.2.d.nDuals = some (n.nV + n.nA) ∧ i.2.d.boxOff = some n.nV ∧ i.2.s.hist = o.s.hist ∧
    (o.d.lbL ≠ none → i.2.d.gPhi ≠ none) := by
  obtain ⟨sub, hsub, hc⟩ := chooseSolver_qpo (e := e) h hm
  obtain ⟨i, hi, _⟩ := initializeSolver_total (e := e) h
  have hi' := hi
  rw [initializeSolver, hc, ok_bind, if_neg (by simp)] at hi'
  simp only [initRest, bind_eq_ok] at hi'
  obtain ⟨_, _, _, _, _, _, d', hd', hi'⟩ := hi'
  injection hi' with hi'
  refine ⟨i, sub, hsub, hi, ?_, ?_, ?_, ?_, ?_, ?_, ?_, ?_, ?_⟩ <;> rw [← hi']
  · dsimp only
    split <;> rfl
  all_goals
    rcases initPhi_inv hd' with ⟨hl, hr, hd'⟩ | ⟨_, _, _, _, _, _, hd'⟩ <;> subst hd'
  all_goals try rfl
  · dsimp only; split <;> rfl
  · dsimp only; split <;> rfl
  · intro h; exact absurd hl h
  · intro _; simp

end anyArith

section exact
variable {K : Type} [Field K] [LinearOrder K] [IsStrictOrderedRing K] {n : Dims} {P : Prob K n} {e e' : Env (Ext K)}
  {o o' : Obj (Ext K)} {x0 : Fin n.nV → K} {r0 f : K} {H : Prop}

/-- finite numbers -/
def IsFin (x : Ext K) : Prop := ∃ a, x = fin a

theorem closed_fin : Closed (IsFin (K := K)) where
  lit m e := ⟨_, lit_fin m e⟩
  add := by rintro _ _ ⟨a, rfl⟩ ⟨b, rfl⟩; exact ⟨_, fin_add a b⟩
  mul := by rintro _ _ ⟨a, rfl⟩ ⟨b, rfl⟩; exact ⟨_, fin_mul a b⟩
  neg := by rintro _ ⟨a, rfl⟩; exact ⟨_, fin_neg a⟩
  div := by
    rintro _ _ ⟨a, rfl⟩ ⟨b, rfl⟩ h
    rw [zero_fin, fin_lt, decide_eq_true_iff] at h
    exact ⟨_, fin_div a b h.ne'⟩

theorem vecF_ev {m : Nat} (v : Fin m → K) : VecF IsFin m (ev v) :=
  ⟨by simp, fun _ h => ⟨_, gt_ev' v h⟩⟩

theorem VecF.ev {m : Nat} {l : List (Ext K)} (h : VecF IsFin m l) : ∃ v : Fin m → K, l = LCQ.ev v :=
  exists_ev h.1 h.2

theorem rep_exact {p p' : Bool} {B B' : Option (List (Ext K))} {S S' : Option (CSC (Ext K))} {m k : Nat}
    {Mx : Matrix (Fin m) (Fin k) K} (h : MatIs p B S m k Mx) (h' : MatIs p' B' S' m k Mx) :
    Rep IsFin p B S p' B' S' m k where
  mul := by
    intro b o o' hb ho ho'
    obtain ⟨v, rfl⟩ := hb.ev
    exact ⟨_, vecF_ev _, mulDS_exact h v ho, mulDS_exact h' v ho'⟩
  tmul := by
    intro b o o' hb ho ho'
    obtain ⟨v, rfl⟩ := hb.ev
    exact ⟨_, vecF_ev _, tmulDS_exact h v ho, tmulDS_exact h' v ho'⟩

theorem repSq_exact {p p' : Bool} {B B' : Option (List (Ext K))} {S S' : Option (CSC (Ext K))} {k : Nat}
    {Mx : Matrix (Fin k) (Fin k) K} (h : MatIs p B S k k Mx) (h' : MatIs p' B' S' k k Mx) (hs : Mxᵀ = Mx) :
    RepSq IsFin p B S p' B' S' k where
  affine := by
    rintro _ b c o o' ⟨a, rfl⟩ hb hc ho ho'
    obtain ⟨v, rfl⟩ := hb.ev
    obtain ⟨w, rfl⟩ := hc.ev
    have h1 := affineDS_exact h a v w ho
    have h2 := affineDS_exact h' a v w ho'
    rw [tr_symm _ hs] at h1 h2
    exact ⟨_, vecF_ev _, h1, h2⟩
  quad := by
    intro b hb
    obtain ⟨v, rfl⟩ := hb.ev
    exact ⟨_, ⟨_, rfl⟩, quadDS_exact h v, quadDS_exact h' v⟩

/-- The worlds give the same answers to requests for the same quadratic program, in whatever form the matrices are
handed to qpOASES. -/
structure SameAnswers (e e' : Env (Ext K)) (n : Dims) (Q : Matrix (Fin n.nV) (Fin n.nV) K)
    (A : Matrix (Fin n.nA) (Fin n.nV) K) : Prop where
  rnd : e.rnd = e'.rnd
  junk : e.junk = e'.junk
  qp : ∀ k s s' init g lA uA x y lb ub q p, s.Holds n Q A → s'.Holds n Q A → (∀ U V, s ≠ .osqp U V) → (∀ U V, s' ≠ .osqp U V) →
    e.qp k ⟨s, init, g, lA, uA, x, y, lb, ub, q, p⟩ = e'.qp k ⟨s', init, g, lA, uA, x, y, lb, ub, q, p⟩

/-- apart from the form of the matrices and the solver chosen, the objects hold the same -/
structure SameRest (o o' : Obj (Ext K)) : Prop where
  opts : ∃ k, o.d.opts = { o'.d.opts with qpSolver := k }
  lbA : o.d.lbA = o'.d.lbA
  ubA : o.d.ubA = o'.d.ubA
  lbTmp : o.d.lbTmp = o'.d.lbTmp
  ubTmp : o.d.ubTmp = o'.d.ubTmp
  low : o.d.lbL = none ↔ o'.d.lbL = none
  yk : o.s.yk = o'.s.yk
  hist : o.s.hist = o'.s.hist
  calls : o.s.calls = o'.s.calls
  rnd : o.s.rnd = o'.s.rnd
  out : o.s.out = o'.s.out

theorem init_gPhi (hH : Holds o n P) (hL : o.d.lbL = none) {i : RV × Obj (Ext K)} (hi : initializeSolver e o = .ok i)
    (h1 : i.1 = .successfulReturn) : i.2.d.gPhi = none := by
  rcases hH.low with ⟨_, hR, _, _, hg, _⟩ | ⟨h, _⟩
  · rw [(init_noLow hi h1 hL hR).1]
    exact hg
  · obtain ⟨l, hl, _⟩ := h
    rw [hL] at hl
    cases hl

/-- Runs of two objects holding the same symmetric problem agree. -/
theorem setup_rel (hS : Setup e o n P x0 r0 f) (hS' : Setup e' o' n P x0 r0 f) (hsym : P.Qᵀ = P.Q) (hm : Matched o)
    (hm' : Matched o') (hR : SameRest o o') (hE : SameAnswers e e' n P.Q P.AA) (fuel : Nat) :
    RelM (Option.Rel fun a b => a.1 = b.1 ∧ Core True a.2.s b.2.s) (runSolver e fuel o) (runSolver e' fuel o') := by
  obtain ⟨i, sub, hsub, hi, h1, hy, hs, hl, hu, hnd, hbo, hh, hgp⟩ := initializeSolver_qpo (e := e) hS.ready hm
  obtain ⟨i', sub', hsub', hi', h1', hy', hs', hl', hu', hnd', hbo', hh', hgp'⟩ := initializeSolver_qpo (e := e') hS'.ready hm'
  obtain ⟨off, hD, hI, hArr, hyk, hQk, hidx, hgT, hrho, halp, hout, hx, hcal, hopt, hsp, hrnd⟩ := init_x hS.ready hS.holds hi h1
  obtain ⟨off', hD', hI', hArr', hyk', hQk', hidx', hgT', hrho', halp', hout', hx', hcal', hopt', hsp', hrnd'⟩ :=
    init_x hS'.ready hS'.holds hi' h1'
  obtain ⟨_, _, _, _, _, _, _, _, _, _, sh⟩ := initializeSolver_ok hi h1
  obtain ⟨_, _, _, _, _, _, _, _, _, _, sh'⟩ := initializeSolver_ok hi' h1'
  obtain rfl : off = n.nV := by have := hI.boxOff; rw [hbo] at this; injection this with this; exact this.symm
  obtain rfl : off' = n.nV := by have := hI'.boxOff; rw [hbo'] at this; injection this with this; exact this.symm
  obtain ⟨lA, uA, l, u, hB⟩ := boundsAre_ex hS.ready
  obtain ⟨lA', uA', l', u', hB'⟩ := boundsAre_ex hS'.ready
  obtain ⟨_, hsd, hold⟩ := (init_sends hS.ready hS.holds hB hi h1).sub
  obtain ⟨_, hsd', hold'⟩ := (init_sends hS'.ready hS'.holds hB' hi' h1').sub
  rw [hs] at hsd; injection hsd with hsd; subst hsd
  rw [hs'] at hsd'; injection hsd' with hsd'; subst hsd'
  obtain ⟨k, hopts⟩ := hR.opts
  have fld : i.2.d.opts = { i'.2.d.opts with qpSolver := k } := by rw [hopt, hopt', hopts]
  have hsymr : ∀ r : K, (P.Q + r • P.C)ᵀ = P.Q + r • P.C := by
    intro r
    rw [Matrix.transpose_add, Matrix.transpose_smul, hsym, P.C_symm]
  refine start_rel (n := n) (F := IsFin) (H := True)
    (W0 := fun h h' => (i.2.d.sparse = false → Has h.1 (n.nV * n.nV)) ∧ (i.2.d.sparse = true → h.2.2 = []) ∧
      (i'.2.d.sparse = false → Has h'.1 (n.nV * n.nV)) ∧ (i'.2.d.sparse = true → h'.2.2 = []))
    (W := fun r h h' => ∃ a, r = fin a ∧ (∀ s : St (Ext K), QkIs i.2.d n P (s.setHs h) a) ∧ ∀ s : St (Ext K), QkIs i'.2.d n P (s.setHs h') a)
    closed_fin ?_ ?_ ?_ fuel hi hi' h1 h1' rfl rfl ?_
  · constructor
    · exact hI.dims
    · exact hI'.dims
    · exact hnd
    · exact hnd'
    · exact hbo
    · exact hbo'
    · rw [hl, hl', hR.lbTmp]
    · rw [hu, hu', hR.ubTmp]
    · rw [sh, sh']; exact hR.lbA
    · rw [sh, sh']; exact hR.ubA
    · rw [hI.g, hI'.g]
    · exact ⟨_, hI'.g, vecF_ev _⟩
    · by_cases hlow : o.d.lbL = none
      · rw [init_gPhi hS.holds hlow hi h1, init_gPhi hS'.holds (hR.low.mp hlow) hi' h1']
      · have g1 := hgp hlow
        have g2 := hgp' (fun h => hlow (hR.low.mpr h))
        rcases hI.gPhi with h | ⟨h, _⟩
        · rcases hI'.gPhi with h' | ⟨h', _⟩
          · rw [h, h']
          · exact absurd h' g2
        · exact absurd h g1
    · intro g hg
      rcases hI'.gPhi with h | ⟨h, _⟩
      · rw [h] at hg; injection hg with hg; rw [← hg]; exact vecF_ev _
      · rw [h] at hg; cases hg
    · rw [hI.phiC, hI'.phiC]
    all_goals try rw [fld]
    · exact ⟨f, by rw [hopt']; exact hS'.factor⟩
    · exact fun _ => trivial
    · exact repSq_exact hI.Q hI'.Q hsym
    · exact repSq_exact hI.C hI'.C P.C_symm
    · exact rep_exact hI.A hI'.A
    · exact rep_exact hI.L hI'.L
    · exact rep_exact hI.R hI'.R
  · refine ⟨hE.rnd, hE.junk, sub, sub', hs, hs', hsub, hsub', fun k init g lA uA x y lb ub q p => ⟨?_, fun hret => ?_⟩⟩
    · refine hE.qp _ _ _ _ _ _ _ _ _ _ _ _ _ hold hold' ?_ ?_
      · intro U V h; rw [h] at hsub; cases hsub
      · intro U V h; rw [h] at hsub'; cases hsub'
    · have := hS'.ans k ⟨sub', init, g, lA, uA, x, y, lb, ub, q, p⟩ (by cases hsub' <;> exact hret)
      exact ⟨fun i _ => (this i).1, fun i _ => (this i).2⟩
  · refine ⟨?_, ?_, ?_⟩
    · rintro _ h h' _ ⟨a, rfl, w, w'⟩
      exact repSq_exact ((w i.2.s).mat hI) ((w' i.2.s).mat hI') (hsymr a)
    · rintro _ s t ⟨a, rfl⟩ hs ht ⟨w1, w2, w3, w4⟩
      obtain ⟨A, B, I, q1, q2⟩ := setQk_x hI hs w1 w2
      obtain ⟨A', B', I', q1', q2'⟩ := setQk_x hI' ht w3 w4
      exact ⟨(A, B, I), (A', B', I'), q1, q1', a, rfl, fun s => q2.congr rfl rfl rfl, fun s => q2'.congr rfl rfl rfl⟩
    · rintro _ s t ⟨a, rfl⟩ hs ht ⟨a', ha, w, w'⟩
      injection ha with ha
      subst ha
      have hf' : i'.2.d.opts.factor = fin f := by rw [hopt']; exact hS'.factor
      have hf : i.2.d.opts.factor = fin f := by rw [hopt]; exact hS.factor
      rw [hf', fin_mul] at hs ht ⊢
      obtain ⟨A, B, q1, q2⟩ := updateQk_x hI hf hS.f0 hs ((w s).congr rfl rfl rfl)
      obtain ⟨A', B', q1', q2'⟩ := updateQk_x hI' hf' hS'.f0 ht ((w' t).congr rfl rfl rfl)
      exact ⟨(A, B, s.idxC), (A', B', t.idxC), q1, q1', _, rfl, fun s => q2.congr rfl rfl rfl, fun s => q2'.congr rfl rfl rfl⟩
  · constructor
    · constructor
      · rw [hrho, hrho', hopts]
      · rw [halp, halp']
      · rw [hgT, hgT']
      · rw [hx, hx', hS.x0, hS'.x0]
      · rw [hy, hy', hR.yk]
      · rw [hout, hout']
      · rw [sh, sh']
      · rw [sh, sh']
      · rw [sh, sh']
      · intro _; rw [hh, hh', hR.hist]
      · rw [sh, sh']; rfl
      · rw [hcal, hcal', hR.calls]
      · rw [hrnd, hrnd', hR.rnd]
      · rw [sh, sh']
        dsimp only
        rw [hR.out, hopts]
    · exact ⟨hArr.gk, hArr.xnew, hArr.pk, hArr.ykA, hArr.statk, hArr.cstat, hArr.bstat, hArr.lkTmp⟩
    · exact ⟨hArr'.gk, hArr'.xnew, hArr'.pk, hArr'.ykA, hArr'.statk, hArr'.cstat, hArr'.bstat, hArr'.lkTmp⟩
    · exact ⟨hQk, hidx, hQk', hidx'⟩
    · exact ⟨_, hrho', _, hS'.rho0⟩
    · exact ⟨_, halp', _, rfl⟩
    · exact ⟨_, hgT', vecF_ev _⟩
    · exact ⟨_, hx'.trans hS'.x0, vecF_ev _⟩
    · exact hyk'

end exact
end LCQ
