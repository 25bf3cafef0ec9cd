import Verif.Lemmas.Total
import Verif.Lemmas.Load

/-!
# A loaded object can be run without faults
-/

set_option linter.unusedSectionVars false

namespace LCQ
open Scalar

variable {α : Type} [Scalar α] {n : Dims} {o : Obj α} {e : Env α}

/-- sizes of the members of a loaded object -/
structure Ready (o : Obj α) (n : Dims) : Prop where
  dims : o.d.dims = some n
  nV : n.nV ≠ 0
  g : Has o.d.g n.nV
  Q : MatOK o.d.sparse o.d.Q o.d.Qs n.nV n.nV
  C : MatOK o.d.sparse o.d.C o.d.Cs n.nV n.nV
  A : MatOK o.d.sparse o.d.A o.d.As n.nA n.nV
  L : MatOK o.d.sparse o.d.L o.d.Ls n.nComp n.nV
  R : MatOK o.d.sparse o.d.R o.d.Rs n.nComp n.nV
  lbA : Has o.d.lbA n.nA
  ubA : Has o.d.ubA n.nA
  gPhi : HasOpt o.d.gPhi n.nV
  lbTmp : HasOpt o.d.lbTmp n.nV
  ubTmp : HasOpt o.d.ubTmp n.nV
  pair : (o.d.lbL = none ∧ o.d.lbR = none) ∨ (Has o.d.lbL n.nComp ∧ Has o.d.lbR n.nComp)
  gk : Has o.s.gk n.nV
  xk : Has o.s.xk n.nV
  ykA : Has o.s.ykA n.nA
  xnew : Has o.s.xnew n.nV
  pk : Has o.s.pk n.nV
  lkTmp : Has o.s.lkTmp n.nV
  statk : Has o.s.statk n.nV
  cstat : Has o.s.cstat n.nV
  bstat : Has o.s.bstat n.nV
  yk : HasOpt o.s.yk (n.nV + n.nA)
  Qk : o.d.sparse = false → Has o.s.Qk (n.nV * n.nV)
  idx : o.d.sparse = true → o.s.idxC = []
  work : o.d.opts.qpSolver = 2 → o.s.work = .null

theorem setBox_ok {d : Data α} (hn : d.dims = some n) (hV : n.nV ≠ 0) {b : Option (List α)} (hb : HasOpt b n.nV)
    (v : α) : ∃ l, setBox d b v = .ok (.successfulReturn, some l) ∧ l.length = n.nV := by
  rw [setBox, hn, initd_some, ok_bind, if_neg hV]
  rcases hb with rfl | ⟨w, rfl, hw⟩
  · exact ⟨_, rfl, by simp⟩
  · dsimp only
    rw [copyN_ok hw, ok_bind]
    exact ⟨_, rfl, hw⟩

theorem setBoxes_ok {d : Data α} (hn : d.dims = some n) (hV : n.nV ≠ 0) (h1 : HasOpt d.lbTmp n.nV)
    (h2 : HasOpt d.ubTmp n.nV) : ∃ l u, setBoxes d = .ok (.successfulReturn, { d with lb := some l, ub := some u }) ∧
      l.length = n.nV ∧ u.length = n.nV := by
  obtain ⟨l, hl, ll⟩ := setBox_ok hn hV h1 (-. inf)
  obtain ⟨u, hu, lu⟩ := setBox_ok hn hV h2 inf
  refine ⟨l, u, ?_, ll, lu⟩
  rw [setBoxes, hl, ok_bind, if_neg (by simp), hu, ok_bind, if_neg (by simp)]

theorem qpCopy_ok {S : CSC α} (h : S.Valid) (m : Nat) :
    qpCopy S m S.n = .ok { m := m, n := S.n, nzmax := S.P S.n, p := S.p, i := S.i.take (S.P S.n), x := S.x.take (S.P S.n) } := by
  have h1 := h.rd_p (le_refl S.n)
  have h2 := h.nz
  have h3 := h.ilen
  have h4 := h.xlen
  rw [qpCopy, h1, ok_bind, if_neg (by omega), copyN_take (by rw [h.plen]), ok_bind, Int.toNat_natCast,
    copyN_take (by omega), ok_bind, copyN_take (by omega), ok_bind, List.take_of_length_le (by rw [h.plen])]

theorem copyCSC_ok {S : CSC α} (h : S.Valid) : copyCSC S = .ok { S with
    i := S.i.take S.nzmax
    x := S.x.take S.nzmax } := by
  rw [copyCSC, copyN_take h.ilen, ok_bind, copyN_take h.xlen, ok_bind, copyN_take (by rw [h.plen]), ok_bind,
    List.take_of_length_le (by rw [h.plen])]

theorem copyCSCUpper_ok {S : CSC α} (h : S.Valid) : ∃ U, copyCSCUpper S = .ok U ∧ U.m = S.m ∧ U.n = S.n := by
  obtain ⟨b, hb, _⟩ := loop_inv (fun _ (_ : Build α) => True) S.n (fun j b => do
    let lo ← rd S.p j
    let hi ← rd S.p (j + 1)
    let b ← loopI lo hi (fun k b => do
      let r ← rdI S.i k
      if r > (j : Int) then .ok b
      else do
        let v ← rdI S.x k
        .ok (Build.push b r v)) b
    .ok b.close) Build.init trivial (by
      intro j hj b _
      rw [h.rd_p (by omega), ok_bind, h.rd_p (by omega), ok_bind, loopI_nat]
      obtain ⟨c, hc, _⟩ := loop_inv (fun _ (_ : Build α) => True) (S.P (j + 1) - S.P j)
        (fun k b => do
          let r ← rdI S.i ((S.P j + k : Nat) : Int)
          if r > (j : Int) then .ok b
          else do
            let v ← rdI S.x ((S.P j + k : Nat) : Int)
            .ok (Build.push b r v)) b trivial (by
          intro k hk b _
          have hlt : S.P j + k < S.P S.n := h.lt_nnz hj (by omega)
          have := h.nz; have := h.ilen; have := h.xlen
          rw [rdI_nat, rdi_ok (by omega), ok_bind]
          split
          · exact ⟨_, rfl, trivial⟩
          · rw [rdI_nat, rd_ok (by omega), ok_bind]
            exact ⟨_, rfl, trivial⟩)
      rw [hc, ok_bind]
      exact ⟨_, rfl, trivial⟩)
  refine ⟨{ m := S.m, n := S.n, nzmax := b.rows.length, p := b.p, i := b.rows, x := b.data }, ?_, rfl, rfl⟩
  rw [copyCSCUpper, hb, ok_bind]

theorem osqpDualGuess_ok {yk : Option (List α)} (h : HasOpt yk (n.nV + n.nA)) :
    ∃ y, osqpDualGuess e n yk = .ok y ∧ HasOpt y n.nA := by
  rcases h with rfl | ⟨y, rfl, ly⟩
  · exact ⟨none, rfl, Or.inl rfl⟩
  · simp only [osqpDualGuess]
    rw [copy_loop_ok (by omega) (by simp [Env.alloc]), ok_bind]
    refine ⟨_, rfl, Or.inr ⟨_, rfl, ?_⟩⟩
    simp [Env.alloc]
    omega

theorem chooseSolver_ok (h : Ready o n) : ∃ r, chooseSolver e o = .ok r ∧
    (r.1 = .successfulReturn → ∃ l u sub y w off, r.2 = ⟨{ o.d with
        nDuals := some (off + n.nA)
        boxOff := some off
        lb := l
        ub := u
        sub := some sub }, { o.s with
        yk := y
        work := w }⟩ ∧ HasOpt l n.nV ∧ HasOpt u n.nV ∧ HasOpt y (off + n.nA) ∧ SubOK r.2.d n off ∧
        ((∃ Q A, sub = .osqp Q A) → o.d.opts.qpSolver = 2 ∧ w = .null ∧ o.d.sparse = true) ∧
        (o.d.opts.qpSolver = 0 → off = n.nV ∧ y = o.s.yk ∧ w = o.s.work)) := by
  have e1 : n.nV + n.nC + 2 * n.nComp = n.nV + n.nA := by simp [Dims.nA]; omega
  unfold chooseSolver
  rw [h.dims, initd_some, ok_bind]
  split
  · rename_i h0
    dsimp only
    rcases h.Q.cases with ⟨hsp, _⟩ | ⟨hsp, Q, hQ, lQ⟩
    · rw [if_pos hsp]
      exact ⟨_, rfl, by simp⟩
    · rw [if_neg (by simp [hsp])]
      have hA := h.A
      rw [MatOK, if_neg (by simp [hsp])] at hA
      obtain ⟨A, hA, lA⟩ := hA
      obtain ⟨l, u, hb, ll, lu⟩ := setBoxes_ok (d := { o.d with
        nDuals := some (n.nV + n.nC + 2 * n.nComp), boxOff := some n.nV }) h.dims h.nV h.lbTmp h.ubTmp
      rw [hb, ok_bind, if_neg (by simp), hQ, deref_some, ok_bind, copyN_ok lQ, ok_bind, hA, deref_some, ok_bind,
        copyN_ok lA, ok_bind]
      refine ⟨_, rfl, fun _ => ⟨some l, some u, .dense n.nV n.nA Q A, o.s.yk, o.s.work, n.nV, ?_,
        Or.inr ⟨l, rfl, ll⟩, Or.inr ⟨u, rfl, lu⟩, h.yk, Or.inl ⟨Q, A, rfl, rfl⟩, by simp, by simp⟩⟩
      rw [e1]
  · split
    · dsimp only
      rcases h.Q.cases with ⟨hsp, Q, hQ, vQ, mQ, nQ⟩ | ⟨hsp, _⟩
      · rw [if_neg (by simp [hsp])]
        have hA := h.A
        rw [MatOK, if_pos hsp] at hA
        obtain ⟨A, hA, vA, mA, nA⟩ := hA
        obtain ⟨l, u, hb, ll, lu⟩ := setBoxes_ok (d := { o.d with
          nDuals := some (n.nV + n.nC + 2 * n.nComp), boxOff := some n.nV }) h.dims h.nV h.lbTmp h.ubTmp
        rw [hb, ok_bind, if_neg (by simp), hQ, deref_some, ok_bind]
        have c1 := qpCopy_ok vQ n.nV
        have c2 := qpCopy_ok vA n.nA
        rw [nQ] at c1
        rw [nA] at c2
        rw [c1, ok_bind, hA, deref_some, ok_bind, c2, ok_bind]
        refine ⟨_, rfl, fun _ => ⟨some l, some u, .sparse n.nV n.nA ⟨n.nV, n.nV, Q.P n.nV, Q.p, Q.i.take (Q.P n.nV), Q.x.take (Q.P n.nV)⟩
          ⟨n.nA, n.nV, A.P n.nV, A.p, A.i.take (A.P n.nV), A.x.take (A.P n.nV)⟩, o.s.yk, o.s.work, n.nV, ?_,
          Or.inr ⟨l, rfl, ll⟩, Or.inr ⟨u, rfl, lu⟩, h.yk, Or.inr (Or.inl ⟨_, _, rfl, rfl⟩), ?_, ?_⟩⟩
        · rw [e1]
        · rintro ⟨_, _, ⟨⟩⟩
        · rintro h0; omega
      · rw [if_pos (by simp [hsp])]
        exact ⟨_, rfl, by simp⟩
    · split
      · rename_i h2
        split
        · exact ⟨_, rfl, by simp⟩
        · rename_i hbox
          have hl : o.d.lb = none := by
            by_contra h'; exact hbox (Or.inl h')
          have hu : o.d.ub = none := by
            by_contra h'; exact hbox (Or.inr h')
          obtain ⟨y, hy, ly⟩ := osqpDualGuess_ok (e := e) h.yk
          rw [hy, ok_bind]
          dsimp only
          rcases h.Q.cases with ⟨hsp, Q, hQ, vQ, mQ, nQ⟩ | ⟨hsp, _⟩
          · rw [if_neg (by simp [hsp])]
            split
            · exact ⟨_, rfl, by simp⟩
            · have hA := h.A
              rw [MatOK, if_pos hsp] at hA
              obtain ⟨A, hA, vA, mA, nA⟩ := hA
              obtain ⟨U, hU, mU, nU⟩ := copyCSCUpper_ok vQ
              rw [hQ, deref_some, ok_bind, hU, ok_bind, hA, deref_some, ok_bind, copyCSC_ok vA, ok_bind, h.work h2]
              refine ⟨_, rfl, fun _ => ⟨o.d.lb, o.d.ub, .osqp U { A with i := A.i.take A.nzmax, x := A.x.take A.nzmax }, y, .null, 0, ?_, Or.inl hl, Or.inl hu, by simpa using ly,
                Or.inr (Or.inr ⟨_, _, rfl, by rw [nU, nQ], mA, rfl, hl, hu⟩), fun _ => ⟨h2, rfl, hsp⟩, ?_⟩⟩
              · rw [Nat.zero_add]
              · intro h0; omega
          · rw [if_pos (by simp [hsp])]
            exact ⟨_, rfl, by simp⟩
      · exact ⟨_, rfl, by simp⟩

theorem initPhi_ok {d : Data α} (hn : d.dims = some n) (hL : MatOK d.sparse d.L d.Ls n.nComp n.nV)
    (hR : MatOK d.sparse d.R d.Rs n.nComp n.nV) (hg : HasOpt d.gPhi n.nV)
    (hp : (d.lbL = none ∧ d.lbR = none) ∨ (Has d.lbL n.nComp ∧ Has d.lbR n.nComp)) :
    ∃ c g, initPhi d = .ok { d with phiConst := c, gPhi := g } ∧ HasOpt g n.nV := by
  unfold initPhi
  rcases hp with h | ⟨⟨l, hl, ll⟩, ⟨r, hr, lr⟩⟩
  · rw [if_pos h]
    exact ⟨d.phiConst, d.gPhi, rfl, hg⟩
  · rw [if_neg (by simp [hl]), hn, initd_some, ok_bind, hl, deref_some, ok_bind, hr, deref_some, ok_bind,
      dotProd_ok (by omega) (by omega), ok_bind]
    obtain ⟨v, lv, hv⟩ := addTMulDS_ok hR (b := l) (out := List.replicate n.nV zero) ll (by simp)
    obtain ⟨w, lw, hw⟩ := addTMulDS_ok hL (b := r) (out := v) lr lv
    rw [hv, ok_bind, hw, ok_bind]
    obtain ⟨x, hx, lx⟩ := loop_inv (fun _ (b : List α) => b.length = n.nV) n.nV (fun i b => do
      let v ← rd b i; wr b i (-. v)) w lw (by
        intro i hi b hb
        rw [rd_ok (by omega), ok_bind, wr_ok (by omega)]
        exact ⟨_, rfl, by simpa using hb⟩)
    rw [hx, ok_bind]
    exact ⟨_, _, rfl, Or.inr ⟨x, rfl, lx⟩⟩

/-- initialisation of a loaded object -/
theorem initializeSolver_total (h : Ready o n) : ∃ i, initializeSolver e o = .ok i ∧
    (i.1 = .successfulReturn → ∃ off, DataOK i.2.d n off ∧ ArrOK n i.2.s ∧ HasOpt i.2.s.yk (off + n.nA) ∧
      (i.2.d.sparse = false → Has i.2.s.Qk (n.nV * n.nV)) ∧ (i.2.d.sparse = true → i.2.s.idxC = []) ∧
      i.2.s.inner = some 0 ∧ i.2.s.calls = o.s.calls ∧ i.2.s.stats = o.s.stats.reset ∧
      i.2.s.algo = some .notSolved ∧
      ((∃ Q A, i.2.d.sub = some (.osqp Q A)) → o.d.opts.qpSolver = 2 ∧ i.2.s.work = .null ∧ o.d.sparse = true) ∧
      (o.d.opts.qpSolver = 0 → i.2.d.sparse = false ∧ off = n.nV) ∧
      i.2.d.lbL = o.d.lbL ∧ i.2.d.lbR = o.d.lbR ∧ i.2.d.lbTmp = none ∧ i.2.d.ubTmp = none ∧
      i.2.d.opts = o.d.opts) := by
  obtain ⟨r, hr, hr'⟩ := chooseSolver_ok (e := e) h
  rw [initializeSolver, hr, ok_bind]
  by_cases h1 : r.1 = .successfulReturn
  · rw [if_neg (by simp [h1])]
    obtain ⟨l, u, sub, y, w, off, hr2, hl, hu, hy, hsub, hw, h0⟩ := hr' h1
    obtain ⟨g, hg, lg⟩ := h.g
    have hd : r.2.d = { o.d with
        nDuals := some (off + n.nA)
        boxOff := some off
        lb := l
        ub := u
        sub := some sub } := by rw [hr2]
    obtain ⟨c, gp, hphi, lgp⟩ := initPhi_ok (d := r.2.d) (n := n) (by rw [hd]; exact h.dims) (by rw [hd]; exact h.L)
      (by rw [hd]; exact h.R) (by rw [hd]; exact h.gPhi) (by rw [hd]; exact h.pair)
    have hdim : r.2.d.dims = some n := by rw [hd]; exact h.dims
    have hgg : r.2.d.g = some g := by rw [hd]; exact hg
    rw [initRest, hdim, initd_some, ok_bind, hgg, deref_some, ok_bind, copyN_ok lg, ok_bind, hphi, ok_bind]
    have hs0 : (o.d.opts.qpSolver = 0 → o.d.sparse = false) := by
      intro h0
      by_contra hsp
      have hsp : o.d.sparse = true := by simpa using hsp
      rw [chooseSolver, h.dims, initd_some, ok_bind, if_pos h0] at hr
      dsimp only at hr
      rw [if_pos hsp] at hr
      injection hr with hr
      rw [← hr] at h1
      exact absurd h1 (by simp)
    refine ⟨_, rfl, fun _ => ⟨off, ?_, ?_, ?_, ?_, ?_, ?_, ?_, ?_, ?_, ?_, ?_, ?_, ?_, rfl, rfl, ?_⟩⟩
    · refine ⟨?_, ?_, ?_, ?_, ?_, ?_, ?_, ?_, ?_, ?_, ?_, lgp, ?_, ?_, ?_⟩
      · exact hdim
      · dsimp only; rw [hd]
      · dsimp only; rw [hd]
      · dsimp only; rw [hd]; exact h.g
      · dsimp only; rw [hd]; exact h.Q
      · dsimp only; rw [hd]; exact h.C
      · dsimp only; rw [hd]; exact h.A
      · dsimp only; rw [hd]; exact h.L
      · dsimp only; rw [hd]; exact h.R
      · dsimp only; rw [hd]; exact h.lbA
      · dsimp only; rw [hd]; exact h.ubA
      · dsimp only; rw [hd]; exact hl
      · dsimp only; rw [hd]; exact hu
      · exact hsub
    · rw [hr2]
      dsimp only
      split
      all_goals
        exact ⟨⟨g, rfl, lg⟩, h.gk, h.xk, h.ykA, h.xnew, h.pk, h.lkTmp, h.statk, h.cstat, h.bstat, ⟨_, rfl⟩, ⟨_, rfl⟩⟩
    · rw [hr2]
      dsimp only
      split <;> exact hy
    · rw [hr2]
      dsimp only
      split <;> exact h.Qk
    · rw [hr2]
      dsimp only
      split <;> exact h.idx
    · dsimp only
      split <;> rfl
    · rw [hr2]
      dsimp only
      split <;> rfl
    · rw [hr2]
      dsimp only
      split <;> rfl
    · dsimp only
      split <;> rfl
    · rw [hr2]
      dsimp only
      rintro ⟨Q, A, hQA⟩
      injection hQA with hQA
      obtain ⟨a, b, c⟩ := hw ⟨Q, A, hQA⟩
      refine ⟨a, ?_, c⟩
      split <;> exact b
    · intro h0'
      refine ⟨?_, (h0 h0').1⟩
      dsimp only
      rw [hd]
      exact hs0 h0'
    · dsimp only; rw [hd]
    · dsimp only; rw [hd]
    · dsimp only; rw [hd]
  · rw [if_pos (by simpa using h1)]
    exact ⟨_, rfl, fun h => absurd h h1⟩

/-- a run of a loaded object does not fail; sizes of the members afterwards -/
theorem runSolver_after (h : Ready o n) {N : Int} (he : AnsBnd e N) (hsm : Small o.d.opts N)
    (hosqp : o.d.opts.qpSolver = 2 → o.d.sparse = true → ∀ r, (e.qp o.s.calls r).setup = true ∧
      (e.qp o.s.calls r).warmX = true ∧ (e.qp o.s.calls r).warmY = true) (fuel : Nat) :
    ∃ q, runSolver e fuel o = .ok q ∧ ∀ r, q = some r →
      ∃ i, initializeSolver e o = .ok i ∧ (i.1 ≠ .successfulReturn ∧ r.1 = i.1 ∨
        (i.1 = .successfulReturn ∧ ∃ off, DataOK r.2.d n off ∧ After r.2.d n off r.2.s ∧
          (o.d.opts.qpSolver = 0 → r.2.d.sparse = false ∧ off = n.nV) ∧ r.2.d.lbL = o.d.lbL ∧ r.2.d.lbR = o.d.lbR ∧
          r.2.d.lbTmp = none ∧ r.2.d.ubTmp = none ∧ r.2.d.opts = o.d.opts)) := by
  have hN : 0 ≤ N := by
    have := he 0 ⟨.dense 0 0 [] [], true, [], [], [], none, none, none, none, 0, none⟩
    omega
  obtain ⟨i, hi, hi'⟩ := initializeSolver_total (e := e) h
  rw [runSolver, hi, ok_bind]
  by_cases h1 : i.1 = .successfulReturn
  · rw [if_neg (by simp [h1])]
    obtain ⟨off, hd, ha, hy, hQk, hidx, hin, hcalls, hst, halg, hw, h0, hL, hR, hlt, hut, hopt⟩ := hi' h1
    have hNI : N ≤ intMax := by
      have e1 := hsm.sub
      have e2 := mul_le_mul_of_nonneg_right (show (1 : Int) ≤ o.d.opts.maxIter + 1 by have := hsm.iter; omega) hN
      rw [one_mul] at e2
      omega
    have hwork : WorkOK e i.2.d i.2.s true := by
      intro Q A hQA
      obtain ⟨a, b, c⟩ := hw ⟨Q, A, hQA⟩
      refine ⟨by simp, fun _ => ⟨by rw [b]; simp, ?_⟩⟩
      rw [hcalls]
      exact hosqp a c
    obtain ⟨f, hf, hf1, hf2⟩ := firstStep_ok hd ha hy hQk hidx he hwork (by rw [hst]; rfl) (by rw [hst]; rfl) hNI hin
    rw [hf, ok_bind]
    cases f with
    | inr q =>
      refine ⟨_, rfl, ?_⟩
      rintro r ⟨⟩
      have := hf2 q rfl
      exact ⟨i, rfl, Or.inr ⟨h1, off, hd, this, h0, hL, hR, hlt, hut, hopt⟩⟩
    | inl s =>
      obtain ⟨hs, hb⟩ := hf1 s rfl
      have hl := Live.first hi h1 hf
      obtain ⟨s', hs', hl, _⟩ | ⟨q, hq, _⟩ := hl
      · injection hs' with hs'
        subst hs'
        obtain ⟨q, hq, hq'⟩ := mainLoop_ok hd he (by rw [hopt]; exact hsm) fuel s 0 0 hs (by rw [hopt]; exact hl) hb
          (by rw [hopt]; have := hsm.iter; simpa using this) (by omega) (Or.inl ⟨rfl, rfl⟩)
        dsimp only
        rw [hq, ok_bind]
        refine ⟨_, rfl, ?_⟩
        intro r hr
        cases q with
        | none => exact absurd hr (by simp)
        | some q =>
          simp only [Option.map_some, Option.some.injEq] at hr
          subst hr
          have := hq' q rfl
          exact ⟨i, rfl, Or.inr ⟨h1, off, hd, this, h0, hL, hR, hlt, hut, hopt⟩⟩
      · exact absurd hq (by simp)
  · rw [if_pos (by simpa using h1)]
    refine ⟨_, rfl, ?_⟩
    rintro r ⟨⟩
    exact ⟨i, rfl, Or.inl ⟨h1, rfl⟩⟩

/-- a run of a loaded object does not fail; afterwards it can be run again if it is dense -/
theorem runSolver_total (h : Ready o n) {N : Int} (he : AnsBnd e N) (hsm : Small o.d.opts N)
    (hosqp : o.d.opts.qpSolver = 2 → o.d.sparse = true → ∀ r, (e.qp o.s.calls r).setup = true ∧
      (e.qp o.s.calls r).warmX = true ∧ (e.qp o.s.calls r).warmY = true) (fuel : Nat) :
    ∃ q, runSolver e fuel o = .ok q ∧ ∀ r, q = some r →
      ∃ i, initializeSolver e o = .ok i ∧ (i.1 ≠ .successfulReturn ∧ r.1 = i.1 ∨
        (i.1 = .successfulReturn ∧ Has r.2.s.xk n.nV ∧ (∃ off, r.2.d.nDuals = some (off + n.nA) ∧
            Has r.2.s.yk (off + n.nA)) ∧ r.2.d.dims = some n ∧
          (o.d.opts.qpSolver = 0 → Ready r.2 n ∧ r.2.d.opts = o.d.opts ∧ r.2.d.lbTmp = none ∧ r.2.d.ubTmp = none))) := by
  obtain ⟨q, hq, h'⟩ := runSolver_after h he hsm hosqp fuel
  refine ⟨q, hq, fun r hr => ?_⟩
  obtain ⟨i, hi, hc | ⟨h1, off, hd, hs, h0, hL, hR, hlt, hut, hopt⟩⟩ := h' r hr
  · exact ⟨i, hi, Or.inl hc⟩
  · refine ⟨i, hi, Or.inr ⟨h1, hs.xk, ⟨off, hd.nDuals, hs.yk⟩, hd.dims, fun hq => ?_⟩⟩
    obtain ⟨hsp, rfl⟩ := h0 hq
    refine ⟨?_, hopt, hlt, hut⟩
    exact { hd, hs with
      nV := h.nV
      lbTmp := by rw [hlt]; exact Or.inl rfl
      ubTmp := by rw [hut]; exact Or.inl rfl
      pair := by rw [hL, hR]; exact h.pair
      yk := Or.inr hs.yk
      idx := by simp [hsp]
      work := by rw [hopt]; omega }

/-- sizes of the members of an object into which a problem can be loaded -/
structure Built (o : Obj α) (n : Dims) : Prop where
  dims : o.d.dims = some n
  nV : n.nV ≠ 0
  nComp : n.nComp ≠ 0
  gPhi : HasOpt o.d.gPhi n.nV
  lbTmp : HasOpt o.d.lbTmp n.nV
  ubTmp : HasOpt o.d.ubTmp n.nV
  pair : (o.d.lbL = none ∧ o.d.lbR = none) ∨ (Has o.d.lbL n.nComp ∧ Has o.d.lbR n.nComp)
  gk : Has o.s.gk n.nV
  ykA : Has o.s.ykA n.nA
  xnew : Has o.s.xnew n.nV
  pk : Has o.s.pk n.nV
  lkTmp : Has o.s.lkTmp n.nV
  statk : Has o.s.statk n.nV
  cstat : Has o.s.cstat n.nV
  bstat : Has o.s.bstat n.nV
  Qk : Has o.s.Qk (n.nV * n.nV)
  work : o.d.opts.qpSolver = 2 → o.s.work = .null

/-- the constructor -/
theorem Built.new (opts : Options α) {nV nC nComp : Int} (h : 1 ≤ nV ∧ 1 ≤ nComp ∧ 0 ≤ nC) :
    Built (Obj.new opts nV nC nComp) ⟨nV.toNat, nC.toNat, nComp.toNat⟩ := by
  unfold Obj.new
  dsimp only
  rw [if_neg (by omega), if_neg (by omega), if_neg (by omega)]
  have hh : ∀ (k : Nat), Has (some (List.replicate k (zero : α))) k := fun k => ⟨_, rfl, by simp⟩
  exact ⟨rfl, by dsimp only; omega, by dsimp only; omega, Or.inl rfl, Or.inl rfl, Or.inl rfl, Or.inl ⟨rfl, rfl⟩,
    hh _, hh _, hh _, hh _, hh _, hh _, hh _, hh _, hh _, fun _ => rfl⟩

theorem Ready.built (h : Ready o n) (hs : o.d.sparse = false) (hC : n.nComp ≠ 0) : Built o n :=
  { h with
    nComp := hC
    Qk := h.Qk hs }

theorem hasOpt_take {b : Option (List α)} {k : Nat} (h : OptLen b k) : HasOpt (b.map (List.take k)) k := by
  cases b with
  | none => exact Or.inl rfl
  | some v => exact Or.inr ⟨_, rfl, by simpa using h v rfl⟩

theorem hasOpt_orElse {a b : Option (List α)} {k : Nat} (ha : HasOpt a k) (hb : HasOpt b k) :
    HasOpt (a.orElse fun _ => b) k := by
  rcases ha with rfl | ⟨v, rfl, h⟩
  · exact hb
  · exact Or.inr ⟨v, rfl, h⟩

theorem bndMem_pair {l r l0 r0 : Option (List α)} {k : Nat} (hl : OptLen l k) (hr : OptLen r k)
    (h : l = none ↔ r = none) (h0 : (l0 = none ∧ r0 = none) ∨ (Has l0 k ∧ Has r0 k)) :
    (bndMem l l0 k = none ∧ bndMem r r0 k = none) ∨ (Has (bndMem l l0 k) k ∧ Has (bndMem r r0 k) k) := by
  cases l with
  | none =>
    have : r = none := h.mp rfl
    subst this
    simpa [bndMem] using h0
  | some v =>
    cases r with
    | none => exact absurd (h.mpr rfl) (by simp)
    | some w =>
      right
      exact ⟨⟨v.take k, rfl, by simpa using hl v rfl⟩, ⟨w.take k, rfl, by simpa using hr w rfl⟩⟩

/-- after a successful dense load the object can be run -/
theorem Built.load {a : DenseArgs α} {o' : Obj α} (hb : Built o n) (hf : a.Fits n)
    (hp : a.lbL = none ↔ a.lbR = none) (h : loadDense e o a = .ok (.successfulReturn, o')) :
    Ready o' n ∧ o'.d.opts = o.d.opts ∧ o'.d.sparse = false := by
  rcases loadDense_ok (e := e) hb.dims hb.nV hb.nComp hf with ⟨_, _, h'⟩ | ⟨_, _, _, h'⟩ | ⟨_, _, _, _, h'⟩ |
    ⟨_, hA, _, _, Q, g, L, R, hQ, hg, hL, hR, lQ, lg, lL, lR, h'⟩
  · rw [h'] at h; injection h with h; injection h with h _; cases h
  · rw [h'] at h; injection h with h; injection h with h _; cases h
  · rw [h'] at h; injection h with h; injection h with h _; cases h
  · rw [h'] at h
    injection h with h
    injection h with _ h
    subst h
    have hlA : n.nC * n.nV ≤ (a.A.getD []).length := by
      cases h : a.A with
      | none =>
        have : n.nC = 0 := by
          by_contra h0; exact hA ⟨h, by omega⟩
        simp [this]
      | some v => simpa using hf.A v h
    have hsz : n.nA * n.nV = n.nC * n.nV + n.nComp * n.nV + n.nComp * n.nV := by simp [Dims.nA]; ring
    refine ⟨?_, rfl, rfl⟩
    exact { hb with
      g := ⟨_, rfl, by simpa using lg⟩
      Q := ⟨_, rfl, by simpa using lQ⟩
      C := ⟨_, rfl, by simp⟩
      A := ⟨_, rfl, by rw [hsz]; simp; omega⟩
      L := ⟨_, rfl, by simpa using lL⟩
      R := ⟨_, rfl, by simpa using lR⟩
      lbA := ⟨_, rfl, by simp [orFill_length hf.lbA, orFill_length hf.lbL, orFill_length hf.lbR, Dims.nA]; omega⟩
      ubA := ⟨_, rfl, by simp [orFill_length hf.ubA, orFill_length hf.ubL, orFill_length hf.ubR, Dims.nA]; omega⟩
      lbTmp := hasOpt_orElse (hasOpt_take hf.lb) hb.lbTmp
      ubTmp := hasOpt_orElse (hasOpt_take hf.ub) hb.ubTmp
      pair := bndMem_pair hf.lbL hf.lbR hp hb.pair
      xk := ⟨_, rfl, orFill_length hf.x0⟩
      yk := hasOpt_take hf.y0
      Qk := fun _ => hb.Qk
      idx := by intro h; exact absurd h (by simp [denseObj]) }

/-- initialisation of a dense object -/
theorem init_dense (h : Ready o n) (hq : o.d.opts.qpSolver = 0) (hs : o.d.sparse = false) :
    ∃ i, initializeSolver e o = .ok i ∧ i.1 = .successfulReturn := by
  obtain ⟨i, hi, _⟩ := initializeSolver_total (e := e) h
  refine ⟨i, hi, ?_⟩
  obtain ⟨c, hc, _⟩ := chooseSolver_ok (e := e) h
  have hcs : c.1 = .successfulReturn := by
    rw [chooseSolver, h.dims, initd_some, ok_bind, if_pos hq] at hc
    dsimp only at hc
    rw [if_neg (by simp [hs])] at hc
    obtain ⟨l, u, hb, _⟩ := setBoxes_ok (d := { o.d with
      nDuals := some (n.nV + n.nC + 2 * n.nComp), boxOff := some n.nV }) h.dims h.nV h.lbTmp h.ubTmp
    rw [hb, ok_bind, if_neg (by simp)] at hc
    simp only [bind_eq_ok] at hc
    obtain ⟨_, _, _, _, _, _, _, _, hc⟩ := hc
    injection hc with hc
    rw [← hc]
  rw [initializeSolver, hc, ok_bind, if_neg (by simp [hcs])] at hi
  simp only [initRest, bind_eq_ok] at hi
  obtain ⟨_, _, _, _, _, _, _, _, hi⟩ := hi
  injection hi with hi
  rw [← hi]

/-- after a run that was initialised, the status is determined -/
theorem run_algo {fuel : Nat} {r i : RV × Obj α} (hr : runSolver e fuel o = .ok (some r))
    (hi : initializeSolver e o = .ok i) (hok : i.1 = .successfulReturn) : ∃ t, r.2.s.algo = some t := by
  obtain ⟨_, _, _, h | ⟨t, k, _, _, h⟩⟩ := run_ended hr hi hok
  · exact ⟨_, h.2.2.2.2.1⟩
  · obtain ⟨rv, o'⟩ := r
    obtain ⟨d', s'⟩ := o'
    dsimp only at h ⊢
    cases h with
    | success s a _ hs _ _ _ => exact ⟨a, hs⟩
    | iters s hl _ => exact ⟨_, hl.algo⟩
    | rho s hl _ _ => exact ⟨_, hl.algo⟩
    | sub rv s hl _ _ _ => exact ⟨_, hl.algo⟩

/-- a run of a dense object -/
theorem run_dense (h : Ready o n) (hq : o.d.opts.qpSolver = 0) (hs : o.d.sparse = false) {N : Int}
    (he : AnsBnd e N) (hsm : Small o.d.opts N) (fuel : Nat) :
    ∃ q, runSolver e fuel o = .ok q ∧ ∀ r, q = some r →
      Ready r.2 n ∧ r.2.d.opts = o.d.opts ∧ r.2.d.sparse = false ∧ r.2.d.nDuals = some (n.nV + n.nA) ∧
      Has r.2.s.yk (n.nV + n.nA) ∧ ∃ t, r.2.s.algo = some t := by
  obtain ⟨q, h1, h2⟩ := runSolver_total h he hsm (by rw [hq]; omega) fuel
  refine ⟨q, h1, ?_⟩
  intro r hr
  subst hr
  obtain ⟨i, hi, hc⟩ := h2 r rfl
  obtain ⟨i', hi', hok⟩ := init_dense (e := e) h hq hs
  rw [hi] at hi'
  injection hi' with hi'
  subst hi'
  rcases hc with ⟨hne, _⟩ | ⟨_, hx, ⟨off, hd, hy⟩, _, hc⟩
  · exact absurd hok hne
  · obtain ⟨h3, h4, _⟩ := hc hq
    obtain ⟨j, hj, hj'⟩ := initializeSolver_total (e := e) h
    rw [hi] at hj
    injection hj with hj
    subst hj
    obtain ⟨off', hd', _, _, _, _, _, _, _, _, _, h0, _⟩ := hj' hok
    obtain ⟨hsp, rfl⟩ := h0 hq
    have hdd : r.2.d = i.2.d := (run_ended h1 hi hok).1
    rw [hdd] at hd ⊢
    have : off = n.nV := by
      have := hd.symm.trans hd'.nDuals
      injection this with this
      omega
    subst this
    exact ⟨h3, by rw [← hdd]; exact h4, hsp, hd, hy, run_algo h1 hi hok⟩

end LCQ
