import Verif.Lemmas.Twin

/-!
# Two dense objects which hold the same problem
-/

set_option linter.unusedSectionVars false

namespace LCQ
open Scalar

variable {α : Type} [Scalar α] {n : Dims} {o o' : Obj α} {e : Env α} {H : Prop}

/-- the members a run of a dense object with qpOASES starts from are the same -/
structure SameLoad (H : Prop) (o o' : Obj α) : Prop where
  sparse : o.d.sparse = false
  sparse' : o'.d.sparse = false
  Q : o.d.Q = o'.d.Q
  g : o.d.g = o'.d.g
  A : o.d.A = o'.d.A
  L : o.d.L = o'.d.L
  R : o.d.R = o'.d.R
  C : o.d.C = o'.d.C
  lbA : o.d.lbA = o'.d.lbA
  ubA : o.d.ubA = o'.d.ubA
  lbTmp : o.d.lbTmp = o'.d.lbTmp
  ubTmp : o.d.ubTmp = o'.d.ubTmp
  lbL : o.d.lbL = o'.d.lbL
  lbR : o.d.lbR = o'.d.lbR
  phi : o'.d.lbL = none → o'.d.lbR = none → o.d.gPhi = o'.d.gPhi ∧ o.d.phiConst = o'.d.phiConst
  opts : o.d.opts = o'.d.opts
  xk : o.s.xk = o'.s.xk
  yk : o.s.yk = o'.s.yk
  calls : o.s.calls = o'.s.calls
  rnd : o.s.rnd = o'.s.rnd
  out : o.s.out = o'.s.out
  hist : H → o.s.hist = o'.s.hist

theorem setBox_val {d : Data α} (hn : d.dims = some n) (hV : n.nV ≠ 0) {b : Option (List α)} (hb : HasOpt b n.nV)
    (v : α) : setBox d b v = .ok (.successfulReturn, some (orFill b n.nV v)) ∧ (orFill b n.nV v).length = n.nV := by
  rw [setBox, hn, initd_some, ok_bind, if_neg hV]
  rcases hb with rfl | ⟨w, rfl, hw⟩
  · exact ⟨rfl, by simp [orFill]⟩
  · dsimp only
    rw [copyN_ok hw, ok_bind]
    refine ⟨?_, ?_⟩ <;> simp [orFill, ← hw]

/-- what `initializeSolver` leaves for the dense qpOASES solver -/
def initDense (o : Obj α) (n : Dims) (Q A g : List α) (c : α) (gp : Option (List α)) : Obj α where
  d := { o.d with
    nDuals := some (n.nV + n.nA)
    boxOff := some n.nV
    lb := some (orFill o.d.lbTmp n.nV (-. inf))
    ub := some (orFill o.d.ubTmp n.nV inf)
    sub := some (.dense n.nV n.nA Q A)
    phiConst := c
    gPhi := gp
    lbTmp := none
    ubTmp := none }
  s := { o.s with
    gTilde := some g
    alpha := some one
    rho := some o.d.opts.rho0
    outer := some 0
    inner := some 0
    total := some 0
    algo := some .notSolved
    stats := o.s.stats.reset
    out := if o.d.opts.printLevel > 0 then o.s.out ++ [.newline] else o.s.out }

theorem initRest_eq {d d' : Data α} {s : St α} {g : List α} (hn : d.dims = some n) (hg : d.g = some g) (lg : g.length = n.nV)
    (hp : initPhi d = .ok d') : initRest ⟨d, s⟩ = .ok (.successfulReturn, { d := { d' with lbTmp := none, ubTmp := none }, s := { s with
    gTilde := some g
    alpha := some one
    rho := some d'.opts.rho0
    outer := some 0
    inner := some 0
    total := some 0
    algo := some .notSolved
    stats := s.stats.reset
    out := if d'.opts.printLevel > 0 then s.out ++ [.newline] else s.out } }) := by
  rw [initRest]
  dsimp only
  rw [hn, initd_some, ok_bind, hg, deref_some, ok_bind, copyN_ok lg, ok_bind, hp, ok_bind]
  split <;> rfl

theorem initializeSolver_dense (h : Ready o n) (hq : o.d.opts.qpSolver = 0) (hs : o.d.sparse = false) {Q A g : List α}
    (hQ : o.d.Q = some Q) (hA : o.d.A = some A) (hg : o.d.g = some g) {c : α} {gp : Option (List α)}
    (hphi : initPhi o.d = .ok { o.d with phiConst := c, gPhi := gp }) :
    initializeSolver e o = .ok (.successfulReturn, initDense o n Q A g c gp) := by
  have lQ := h.Q
  have lA := h.A
  rw [MatOK, if_neg (by simp [hs])] at lQ lA
  obtain ⟨_, hQ', lQ⟩ := lQ
  obtain ⟨_, hA', lA⟩ := lA
  rw [hQ] at hQ'; rw [hA] at hA'
  injection hQ' with hQ'; injection hA' with hA'
  subst hQ' hA'
  obtain ⟨_, hg', lg⟩ := h.g
  rw [hg] at hg'; injection hg' with hg'; subst hg'
  have e1 : n.nV + n.nC + 2 * n.nComp = n.nV + n.nA := by simp [Dims.nA]; omega
  have b1 := setBox_val (d := { o.d with nDuals := some (n.nV + n.nC + 2 * n.nComp), boxOff := some n.nV })
    h.dims h.nV h.lbTmp (-. inf)
  have b2 := setBox_val (d := { o.d with nDuals := some (n.nV + n.nC + 2 * n.nComp), boxOff := some n.nV })
    h.dims h.nV h.ubTmp inf
  have hb : setBoxes { o.d with nDuals := some (n.nV + n.nC + 2 * n.nComp), boxOff := some n.nV } =
      .ok (.successfulReturn, { o.d with
        nDuals := some (n.nV + n.nC + 2 * n.nComp)
        boxOff := some n.nV
        lb := some (orFill o.d.lbTmp n.nV (-. inf))
        ub := some (orFill o.d.ubTmp n.nV inf) }) := by
    rw [setBoxes, b1.1, ok_bind, if_neg (by simp), b2.1, ok_bind, if_neg (by simp)]
  have hc : chooseSolver e o = .ok (.successfulReturn, { o with d := { o.d with
        nDuals := some (n.nV + n.nA)
        boxOff := some n.nV
        lb := some (orFill o.d.lbTmp n.nV (-. inf))
        ub := some (orFill o.d.ubTmp n.nV inf)
        sub := some (.dense n.nV n.nA Q A) } }) := by
    rw [chooseSolver, h.dims, initd_some, ok_bind, if_pos hq]
    dsimp only
    rw [if_neg (by simp [hs]), hb, ok_bind, if_neg (by simp), hQ, deref_some, ok_bind, copyN_ok lQ, ok_bind, hA, deref_some,
      ok_bind, copyN_ok lA, ok_bind, e1]
  have hphi' : initPhi { o.d with
        nDuals := some (n.nV + n.nA)
        boxOff := some n.nV
        lb := some (orFill o.d.lbTmp n.nV (-. inf))
        ub := some (orFill o.d.ubTmp n.nV inf)
        sub := some (.dense n.nV n.nA Q A) } = .ok { o.d with
        nDuals := some (n.nV + n.nA)
        boxOff := some n.nV
        lb := some (orFill o.d.lbTmp n.nV (-. inf))
        ub := some (orFill o.d.ubTmp n.nV inf)
        sub := some (.dense n.nV n.nA Q A)
        phiConst := c
        gPhi := gp } := by
    unfold initPhi at hphi ⊢
    dsimp only at hphi ⊢
    split at hphi
    · rename_i hh
      rw [if_pos hh]
      injection hphi with hphi
      have h1 := congrArg Data.phiConst hphi
      have h2 := congrArg Data.gPhi hphi
      dsimp only at h1 h2
      rw [h1, h2]
    · rename_i hh
      rw [if_neg hh]
      simp only [bind_eq_ok] at hphi
      obtain ⟨m, h1, lL, h2, lR, h3, c', h4, g1, h5, g2, h6, g3, h7, h8⟩ := hphi
      rw [h1, ok_bind, h2, ok_bind, h3, ok_bind, h4, ok_bind, h5, ok_bind, h6, ok_bind, h7, ok_bind]
      injection h8 with h8
      have h1 := congrArg Data.phiConst h8
      have h2 := congrArg Data.gPhi h8
      dsimp only at h1 h2
      rw [h1, h2]
  rw [initializeSolver, hc, ok_bind, if_neg (by simp), initRest_eq (by exact h.dims) (by exact hg) lg hphi']
  rfl

theorem initPhi_dense (h : Ready o n) (h' : Ready o' n) (S : SameLoad H o o') : ∃ c gp, HasOpt gp n.nV ∧
    initPhi o.d = .ok { o.d with phiConst := c, gPhi := gp } ∧
    initPhi o'.d = .ok { o'.d with phiConst := c, gPhi := gp } := by
  obtain ⟨c, gp, hp, lg⟩ := initPhi_ok h'.dims h'.L h'.R h'.gPhi h'.pair
  refine ⟨c, gp, lg, ?_, hp⟩
  unfold initPhi at hp ⊢
  rw [S.lbL, S.lbR]
  split at hp
  · rename_i hh
    obtain ⟨p1, p2⟩ := S.phi hh.1 hh.2
    rw [if_pos hh]
    injection hp with hp
    have h1 := congrArg Data.phiConst hp
    have h2 := congrArg Data.gPhi hp
    dsimp only at h1 h2
    rw [← h1, ← h2, ← p1, ← p2]
  · rename_i hh
    rw [if_neg hh]
    simp only [addTMulDS, S.sparse', Bool.false_eq_true, if_false] at hp
    simp only [bind_eq_ok] at hp
    obtain ⟨m, h1, lL, h2, lR, h3, c', h4, g1, ⟨R, hR, h5⟩, g2, ⟨L, hL, h6⟩, g3, h7, h8⟩ := hp
    have : m = n := by rw [h'.dims] at h1; injection h1 with h1; exact h1.symm
    subst this
    simp only [addTMulDS, S.sparse, S.L, S.R, Bool.false_eq_true, if_false]
    rw [h.dims, initd_some, ok_bind, h2, ok_bind, h3, ok_bind, h4, ok_bind, hR, ok_bind, h5, ok_bind, hL, ok_bind, h6, ok_bind,
      h7, ok_bind]
    injection h8 with h8
    have h1 := congrArg Data.phiConst h8
    have h2 := congrArg Data.gPhi h8
    dsimp only at h1 h2
    rw [h1, h2, S.lbL, S.lbR]

/-- no property -/
abbrev Any (_ : α) : Prop := True

theorem vecAny {n : Nat} {l : List α} (h : l.length = n) : VecF Any n l := ⟨h, fun _ _ => trivial⟩

theorem closed_any : Closed (Any (α := α)) := ⟨fun _ _ => trivial, fun _ _ _ _ => trivial, fun _ _ _ _ => trivial,
  fun _ _ => trivial, fun _ _ _ _ _ => trivial⟩

theorem rep_any {B : Option (List α)} {S S' : Option (CSC α)} {m n : Nat} (h : MatOK false B S m n) :
    Rep Any false B S false B S' m n where
  mul := by
    intro b o o' hb ho ho'
    obtain ⟨v, lv, hv⟩ := mulDS_ok h hb.1
    exact ⟨v, vecAny lv, hv o ho, hv o' ho'⟩
  tmul := by
    intro b o o' hb ho ho'
    obtain ⟨v, lv, hv⟩ := tmulDS_ok h hb.1
    exact ⟨v, vecAny lv, hv o ho, hv o' ho'⟩

theorem repSq_any {B : Option (List α)} {S S' : Option (CSC α)} {n : Nat} (h : MatOK false B S n n) :
    RepSq Any false B S false B S' n where
  affine := by
    intro a b c o o' _ hb hc ho ho'
    obtain ⟨v, lv, hv⟩ := affineDS_ok h a hb.1 hc.1
    exact ⟨v, vecAny lv, hv o ho, hv o' ho'⟩
  quad := by
    intro b hb
    obtain ⟨v, hv⟩ := quadDS_ok h hb.1
    exact ⟨v, trivial, hv, hv⟩

/-- Runs of two dense objects with the same loaded members agree. -/
theorem dense_rel (h : Ready o n) (h' : Ready o' n) (S : SameLoad H o o') (hq : o'.d.opts.qpSolver = 0)
    (hh : o'.d.opts.nDyn ≠ 0 → H) (fuel : Nat) :
    RelM (Option.Rel fun a b => a.1 = b.1 ∧ Core H a.2.s b.2.s) (runSolver e fuel o) (runSolver e fuel o') := by
  obtain ⟨c, gp, lgp, p1, p2⟩ := initPhi_dense h h' S
  have lQ := h'.Q
  have lA := h'.A
  have lC := h'.C
  rw [MatOK, if_neg (by simp [S.sparse'])] at lQ lA lC
  obtain ⟨Q, hQ, lQ⟩ := lQ
  obtain ⟨A, hA, lA⟩ := lA
  obtain ⟨C, hC, lC⟩ := lC
  obtain ⟨g, hg, lg⟩ := h'.g
  have i1 := initializeSolver_dense (e := e) h (by rw [S.opts]; exact hq) S.sparse (S.Q.trans hQ) (S.A.trans hA) (S.g.trans hg) p1
  have i2 := initializeSolver_dense (e := e) h' hq S.sparse' hQ hA hg p2
  have mQ := h'.Q
  have mC := h'.C
  have mA := h'.A
  have mL := h'.L
  have mR := h'.R
  rw [S.sparse'] at mQ mC mA mL mR
  refine start_rel (n := n) (F := Any) (W0 := fun h h' => Has h.1 (n.nV * n.nV) ∧ Has h'.1 (n.nV * n.nV))
    (W := fun _ h h' => h.1 = h'.1 ∧ Has h.1 (n.nV * n.nV)) closed_any ?_ ?_ ?_ fuel i1 i2 rfl rfl rfl rfl ?_
  · constructor
    all_goals try unfold initDense
    all_goals dsimp only
    · exact h.dims
    · exact h'.dims
    · rw [S.lbTmp]
    · rw [S.ubTmp]
    · exact S.lbA
    · exact S.ubA
    · exact S.g
    · exact ⟨g, hg, vecAny lg⟩
    · intro g hg
      rcases lgp with h | ⟨v, h, lv⟩
      · rw [h] at hg; cases hg
      · rw [h] at hg; injection hg with hg; rw [← hg]; exact vecAny lv
    all_goals try rw [S.opts]
    · trivial
    · exact hh
    · rw [S.sparse, S.sparse', S.Q]; exact repSq_any mQ
    · rw [S.sparse, S.sparse', S.C]; exact repSq_any mC
    · rw [S.sparse, S.sparse', S.A]; exact rep_any mA
    · rw [S.sparse, S.sparse', S.L]; exact rep_any mL
    · rw [S.sparse, S.sparse', S.R]; exact rep_any mR
  · exact ⟨rfl, rfl, _, _, rfl, rfl, .dense _ _, .dense _ _, fun _ _ _ _ _ _ _ _ _ _ _ =>
      ⟨rfl, fun _ => ⟨fun _ _ => trivial, fun _ _ => trivial⟩⟩⟩
  · have key : ∀ (d d' : Data α), d.dims = some n → d'.dims = some n → d.sparse = false → d'.sparse = false →
        d.Q = some Q → d'.Q = some Q → d.C = some C → d'.C = some C → ∀ (r : α) (s t : St α),
        s.rho = some r → t.rho = some r → Has s.Qk (n.nV * n.nV) → Has t.Qk (n.nV * n.nV) →
        ∃ q : List α, q.length = n.nV * n.nV ∧ setQk d s = .ok { s with Qk := some q } ∧
          setQk d' t = .ok { t with Qk := some q } ∧ updateQk d s = .ok { s with Qk := some q } ∧
          updateQk d' t = .ok { t with Qk := some q } := by
      intro d d' k1 k1' k2 k2' k3 k3' k4 k4' r s t hs ht ⟨q, hq, lq⟩ ⟨q', hq', lq'⟩
      refine ⟨grid n.nV n.nV fun i j => one *. gt Q (i * n.nV + j) +. r *. gt C (i * n.nV + j), by simp, ?_, ?_, ?_, ?_⟩
      · simp only [setQk, k1, hs, k2, k3, k4, hq, initd_some, deref_some, ok_bind, Bool.false_eq_true, if_false]
        rw [weightedAdd_ok (by simpa [Src.val] using lQ) (by simpa [Src.val] using lC) lq, ok_bind]
        simp only [Src.val]
      · simp only [setQk, k1', ht, k2', k3', k4', hq', initd_some, deref_some, ok_bind, Bool.false_eq_true, if_false]
        rw [weightedAdd_ok (by simpa [Src.val] using lQ) (by simpa [Src.val] using lC) lq', ok_bind]
        simp only [Src.val]
      · simp only [updateQk, k1, hs, k2, k3, k4, hq, initd_some, deref_some, ok_bind, Bool.false_eq_true, if_false]
        rw [weightedAdd_ok (by simpa [Src.val] using lQ) (by simpa [Src.val] using lC) lq, ok_bind]
        simp only [Src.val]
      · simp only [updateQk, k1', ht, k2', k3', k4', hq', initd_some, deref_some, ok_bind, Bool.false_eq_true, if_false]
        rw [weightedAdd_ok (by simpa [Src.val] using lQ) (by simpa [Src.val] using lC) lq', ok_bind]
        simp only [Src.val]
    have key := key (initDense o n Q A g c gp).d (initDense o' n Q A g c gp).d h.dims h'.dims S.sparse S.sparse'
      (S.Q.trans hQ) hQ (S.C.trans hC) hC
    refine ⟨?_, ?_, ?_⟩
    · rintro r a b _ ⟨hab, q, hq, lq⟩
      have k1 : (initDense o n Q A g c gp).d.sparse = false := S.sparse
      have k2 : (initDense o' n Q A g c gp).d.sparse = false := S.sparse'
      dsimp only
      rw [k1, k2, ← hab]
      exact repSq_any (by rw [MatOK, if_neg (by simp)]; exact ⟨q, hq, lq⟩)
    · intro r s t _ hs ht ⟨w1, w2⟩
      obtain ⟨q, lq, k1, k2, _, _⟩ := key r s t hs ht w1 w2
      exact ⟨(some q, s.Qks, s.idxC), (some q, t.Qks, t.idxC), k1, k2, rfl, q, rfl, lq⟩
    · intro r s t _ hs ht ⟨w1, w2⟩
      obtain ⟨q, lq, _, _, k1, k2⟩ := key _ s t hs ht w2 (by
        obtain ⟨q, hq, lq⟩ := w2
        exact ⟨q, w1.symm.trans hq, lq⟩)
      exact ⟨(some q, s.Qks, s.idxC), (some q, t.Qks, t.idxC), k1, k2, rfl, q, rfl, lq⟩
  · have x' := h'.xk
    obtain ⟨x, hx, lx⟩ := h'.xk
    constructor
    · constructor
      all_goals try unfold initDense
      all_goals dsimp only
      · rw [S.opts]
      · exact S.xk
      · exact S.yk
      · exact S.hist
      · rfl
      · exact S.calls
      · exact S.rnd
      · rw [S.opts, S.out]
    · exact ⟨h.gk, h.xnew, h.pk, h.ykA, h.statk, h.cstat, h.bstat, h.lkTmp⟩
    · exact ⟨h'.gk, h'.xnew, h'.pk, h'.ykA, h'.statk, h'.cstat, h'.bstat, h'.lkTmp⟩
    · exact ⟨h.Qk S.sparse, h'.Qk S.sparse'⟩
    · exact ⟨_, rfl, trivial⟩
    · exact ⟨_, rfl, trivial⟩
    · exact ⟨_, rfl, vecAny lg⟩
    · exact ⟨x, hx, vecAny lx⟩
    · exact h'.yk

end LCQ
