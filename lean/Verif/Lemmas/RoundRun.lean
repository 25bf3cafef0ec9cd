import Verif.Props.Certify

/-!
# Contents of the members at the head of the main loop, for any arithmetic
-/

set_option linter.unusedSectionVars false

namespace LCQ
open Scalar

variable {α : Type} [Scalar α] {d : Data α} {n : Dims} {off : Nat} {s s' : St α} {e : Env α} {o o' : Obj α}

/-- the gradient `g_tilde`: that of the objective before the first penalty update, later with the linear part of the
penalty -/
def GT (d : Data α) (n : Dims) (s : St α) : Prop :=
  ∃ g k, d.g = some g ∧ g.length = n.nV ∧ s.outer = some k ∧ 0 ≤ k ∧
    ((s.gTilde = some g ∧ (k = 0 ∨ d.gPhi = none)) ∨
     (∃ gp r, d.gPhi = some gp ∧ gp.length = n.nV ∧ s.rho = some r ∧ 0 < k ∧
       s.gTilde = some (tab n.nV fun i => one *. gt g i +. r *. gt gp i)))

/-- the multipliers of the linear constraints are a part of all multipliers -/
def YL (n : Dims) (off : Nat) (s : St α) : Prop :=
  ∃ y, s.yk = some y ∧ y.length = off + n.nA ∧ s.ykA = some (tab n.nA fun i => gt y (off + i))

/-- members at the head of the main loop -/
structure Head (d : Data α) (n : Dims) (off : Nat) (s : St α) : Prop extends ArrOK n s where
  qk : QkOK d n s
  y : YL n off s
  gt : GT d n s

theorem GT.congr (h : GT d n s) (h1 : s'.outer = s.outer) (h2 : s'.gTilde = s.gTilde) (h3 : s'.rho = s.rho) : GT d n s' := by
  unfold GT
  rw [h1, h2, h3]
  exact h

theorem YL.congr (h : YL n off s) (h1 : s'.yk = s.yk) (h2 : s'.ykA = s.ykA) : YL n off s' := by
  unfold YL
  rw [h1, h2]
  exact h

theorem QkOK.congr (h : QkOK d n s) (h1 : s'.Qk = s.Qk) (h2 : s'.Qks = s.Qks) (h3 : s'.idxC = s.idxC) : QkOK d n s' := by
  unfold QkOK
  rw [h1, h2, h3]
  exact h

theorem YL.has (h : YL n off s) : Has s.yk (off + n.nA) := by
  obtain ⟨y, h1, h2, _⟩ := h
  exact ⟨y, h1, h2⟩

theorem updateStationarity_len (hd : DataOK d n off) (ha : ArrOK n s) (hq : QkOK d n s) (hy : Has s.yk (off + n.nA)) :
    ∃ a b c, Has (some a) n.nV ∧ Has (some b) n.nV ∧ Has c n.nV ∧
      updateStationarity d s = .ok { s with statk := some a, cstat := some b, bstat := c } := by
  obtain ⟨x, h1, l1⟩ := ha.xk
  obtain ⟨gT, h2, l2⟩ := ha.gTilde
  obtain ⟨st, h3, l3⟩ := ha.statk
  obtain ⟨ya, h4, l4⟩ := ha.ykA
  obtain ⟨c, h5, l5⟩ := ha.cstat
  obtain ⟨v, lv, hv⟩ := affineDS_ok (hq.mat hd) one l1 l2
  obtain ⟨w, lw, hw⟩ := tmulDS_ok hd.A l4
  obtain ⟨r, hr, lr1, lr2⟩ := boxStat_ok hd ha.bstat hy
    (st := tab n.nV fun i => one *. LCQ.gt v i +. (-. one) *. LCQ.gt w i) (by simp)
  refine ⟨r.1, w, r.2, ⟨_, rfl, lr1⟩, ⟨_, rfl, lw⟩, lr2, ?_⟩
  simp only [updateStationarity, hd.dims, h1, h2, h3, h4, h5, initd_some, deref_some, ok_bind, hv st l3, hw c l5]
  rw [weightedVecAdd_ok (by simpa [Src.val] using lv) (by simpa [Src.val] using lw) lv, ok_bind]
  simp only [Src.val]
  rw [hr, ok_bind]

theorem Head.advance (hd : DataOK d n off) (hs : Head d n off s) (h : advance d s = .ok s') : Head d n off s' := by
  obtain ⟨x, A, B, C, p, l, ss, t, i, _, _, _, ⟨u, hu, hp⟩, hpe, _, _, hs1⟩ := advance_inv h
  obtain ⟨x', lx', hu'⟩ := updateStep_ok hd hs.toArrOK
  rw [hu] at hu'
  injection hu' with hu'
  have hua : ArrOK n u := by
    rw [hu']
    exact { hs.toArrOK with xk := ⟨_, rfl, lx'⟩ }
  obtain ⟨a, b, c, ha, hb, hc, hp'⟩ := updateStationarity_len hd hua (by rw [hu']; exact hs.qk)
    (by rw [hu']; exact hs.y.has)
  rw [hp] at hp'
  injection hp' with hp'
  have hpa : ArrOK n p := by
    rw [hp']
    exact { hua with
      statk := ha
      cstat := hb
      bstat := hc }
  rw [hs1]
  refine ⟨{ hpa with }, ?_, ?_, ?_⟩
  · rw [hpe]; exact hs.qk
  · rw [hpe]; exact hs.y
  · rw [hpe]; exact hs.gt

theorem Head.bump (hd : DataOK d n off) (hs : Head d n off s) (h : bump d s = .ok s') : Head d n off s' := by
  obtain ⟨g, k, hg, lg, hk, hk0, _⟩ := hs.gt
  obtain ⟨gT, hgT, lgT⟩ := hs.gTilde
  obtain ⟨r0, hr0⟩ := hs.rho
  simp only [LCQ.bump, updatePenalty, bind_eq_ok, initd_eq_ok, hr0, Option.some.injEq] at h
  obtain ⟨s2, ⟨r, hr, s1, h1, h2⟩, s3, h3, h⟩ := h
  subst hr
  obtain ⟨a, b, h1', hq⟩ := updateQk_ok (s := { s with
    hist := if d.opts.nDyn > 0 then [] else s.hist
    rho := some (r0 *. d.opts.factor)
    stats := (s.stats.updateRhoOpt (r0 *. d.opts.factor)).2 }) hd ⟨_, rfl⟩ (hs.qk.congr rfl rfl rfl)
  rw [h1'] at h1
  injection h1 with h1
  obtain ⟨t, st, ht, _, _, rfl⟩ := updateOuterIter_inv h3
  injection h with h
  have hs1 : ArrOK n s1 := by
    rw [← h1]
    exact { hs.toArrOK with rho := ⟨_, rfl⟩ }
  have hk1 : s1.outer = some k ∧ s1.rho = some (r0 *. d.opts.factor) ∧ s1.gTilde = s.gTilde ∧ s1.yk = s.yk ∧ s1.ykA = s.ykA := by
    rw [← h1]
    exact ⟨hk, rfl, rfl, rfl, rfl⟩
  rw [← h1] at h2
  rw [← h1] at hs1 hk1
  unfold updateGTilde at h2
  have key : GT d n s' ∧ ArrOK n s' ∧ s'.yk = s.yk ∧ s'.ykA = s.ykA ∧ QkOK d n s' := by
    split at h2
    · rename_i hgp
      injection h2 with h2
      subst h2
      rename_i hgT2 _
      obtain ⟨g', k', hg', _, hk', _, hh⟩ := hs.gt
      rw [hg] at hg'
      injection hg' with hg'
      subst hg'
      have hgs : s.gTilde = some g := by
        rcases hh with ⟨hh, _⟩ | ⟨gp, _, hgp', _⟩
        · exact hh
        · rw [hgp] at hgp'; cases hgp'
      rw [← h]
      refine ⟨⟨g, t + 1, hg, lg, rfl, ?_, Or.inl ⟨hgs, Or.inr hgp⟩⟩, { hs1 with }, rfl, rfl, hq.congr rfl rfl rfl⟩
      rw [hk1.1] at ht
      injection ht with ht
      omega
    · rename_i gp hgp
      have lgp : gp.length = n.nV := by
        rcases hd.gPhi with h | ⟨v, h, lv⟩
        · rw [hgp] at h; cases h
        · rw [hgp] at h
          injection h with h
          rw [h]; exact lv
      simp only [hd.dims, hg, initd_some, deref_some, ok_bind, hgT] at h2
      rw [weightedVecAdd_ok (by simpa [Src.val] using lg) (by simpa [Src.val] using lgp) lgT, ok_bind] at h2
      injection h2 with h2
      subst h2
      rw [← h]
      rw [hk1.1] at ht
      injection ht with ht
      refine ⟨⟨g, t + 1, hg, lg, rfl, by omega, Or.inr ⟨gp, r0 *. d.opts.factor, hgp, lgp, rfl, by omega, rfl⟩⟩,
        { hs1 with gTilde := ⟨_, rfl, by simp⟩ }, rfl, rfl, hq.congr rfl rfl rfl⟩
  obtain ⟨k1, k2, k3, k4, k5⟩ := key
  exact ⟨k2, k5, hs.y.congr k3 k4, k1⟩

theorem Head.lin (hd : DataOK d n off) (hs : Head d n off s) (h : updateLinearization d s = .ok s') : Head d n off s' := by
  obtain ⟨v, lv, hv⟩ := updateLinearization_ok hd hs.toArrOK
  rw [hv] at h
  injection h with h
  subst h
  exact ⟨{ hs.toArrOK with gk := ⟨_, rfl, lv⟩ }, hs.qk.congr rfl rfl rfl, hs.y.congr rfl rfl, hs.gt.congr rfl rfl rfl⟩

/-- a successful subproblem call -/
theorem solveQP_arr (hd : DataOK d n off) (ha : ArrOK n s) (hy : HasOpt s.yk (off + n.nA)) {init : Bool} {q : RV × St α}
    (h : solveQP e d s init = .ok q) (hq : q.1 = .successfulReturn) : ArrOK n q.2 ∧ YL n off q.2 := by
  simp only [solveQP, bind_eq_ok] at h
  obtain ⟨r, hr, s1, h1, h⟩ := h
  obtain ⟨qi, qe, w, c, k, hk, hr2⟩ := subSolve_inv hr
  have hy1 : Has s1.yk (off + n.nA) := by
    simp only [afterSolve, hd.nDuals, hd.dims, initd_some, ok_bind, bind_eq_ok] at h1
    obtain ⟨_, _, _, _, _, _, h1⟩ := h1
    injection h1 with h1
    rw [← h1, hr2]
    refine ⟨_, rfl, ?_⟩
    rcases hy with h | ⟨y, h, l⟩
    · simp [h, Env.alloc]
    · simpa [h] using l
  obtain ⟨x, hx, lx⟩ := ha.xk
  have ha1 : ArrOK n s1 := by
    simp only [afterSolve, hd.nDuals, hd.dims, initd_some, ok_bind, bind_eq_ok] at h1
    obtain ⟨_, _, _, _, _, _, h1⟩ := h1
    injection h1 with h1
    rw [← h1, hr2]
    exact { ha with xk := ⟨x, by simp [hx], lx⟩ }
  split at h
  · rename_i hne
    injection h with h
    rw [← h] at hq
    exact absurd hq hne
  · simp only [bind_eq_ok] at h
    obtain ⟨s2, h2, h⟩ := h
    injection h with h
    rw [← h]
    have hans : ∃ a, s1.ans = some a := by
      simp only [takeSolution, getSolution, bind_eq_ok, deref_eq_ok] at h2
      obtain ⟨_, _, _, _, _, ⟨_, _, a, ha, _⟩, _⟩ := h2
      exact ⟨a, ha⟩
    obtain ⟨xn, y, hg, lxn, ly⟩ := getSolution_ok hd hans ha1.xnew hy1
    obtain ⟨ya, hya, lya⟩ := ha1.ykA
    obtain ⟨xk, hxk, lxk⟩ := ha1.xk
    obtain ⟨p, hp, lp⟩ := ha1.pk
    rw [takeSolution, hd.dims, initd_some, ok_bind, hd.boxOff, initd_some, ok_bind, hg, ok_bind, hya, deref_some,
      ok_bind, copy_loop_ok (by simp only; omega) lya, ok_bind, hxk, deref_some, ok_bind, hp, deref_some, ok_bind,
      weightedVecAdd_ok (by simpa [Src.val] using lxn) (by simpa [Src.val] using lxk) lp, ok_bind] at h2
    injection h2 with h2
    subst h2
    refine ⟨{ ha1 with
      xk := ⟨xk, rfl, lxk⟩
      xnew := ⟨_, rfl, lxn⟩
      ykA := ⟨_, rfl, by simp⟩
      pk := ⟨_, rfl, by simp⟩ }, ⟨y, rfl, ly, rfl⟩⟩

theorem Head.nextStep (hd : DataOK d n off) (hs : Head d n off s) (h : nextStep e d s = .ok (.inl s')) : Head d n off s' := by
  simp only [LCQ.nextStep, bind_eq_ok] at h
  obtain ⟨s1, h1, q, hq, h⟩ := h
  have k1 := hs.lin hd h1
  split at h
  · cases h
  · rename_i hne
    obtain ⟨a1, y1⟩ := solveQP_arr hd k1.toArrOK (Or.inr k1.y.has) hq (not_not.mp hne)
    obtain ⟨_, _, _, _, _, _, _, _, _, _, _, _, _, _, _, _, _, _, _, _, _, hq2⟩ := solveQP_inv hq
    have q1 : QkOK d n q.2 := by rw [hq2]; exact k1.qk.congr rfl rfl rfl
    have g1 : GT d n q.2 := by rw [hq2]; exact k1.gt.congr rfl rfl rfl
    simp only [bind_eq_ok] at h
    obtain ⟨s2, h2, s3, h3, h⟩ := h
    injection h with h
    injection h with h
    subst h
    obtain ⟨x, c, hx, lx⟩ := perturbIf_ok (e := e) hd a1.xk
    rw [hx] at h2
    injection h2 with h2
    have a2 : ArrOK n s2 := by
      rw [← h2]
      exact { a1 with xk := lx }
    obtain ⟨lt, a, ha, hl⟩ := getOptimalStepLength_ok hd a2 (by rw [← h2]; exact q1.congr rfl rfl rfl)
    rw [ha] at h3
    injection h3 with h3
    subst h3
    refine ⟨{ a2 with
      lkTmp := ⟨_, rfl, hl⟩
      alpha := ⟨_, rfl⟩ }, ?_, ?_, ?_⟩
    · rw [← h2]; exact q1.congr rfl rfl rfl
    · rw [← h2]; exact y1.congr rfl rfl
    · rw [← h2]; exact g1.congr rfl rfl rfl

theorem Head.hist (hs : Head d n off s) (hh : List α) : Head d n off { s with hist := hh } :=
  ⟨{ hs.toArrOK with }, hs.qk.congr rfl rfl rfl, hs.y.congr rfl rfl, hs.gt.congr rfl rfl rfl⟩

theorem Head.pass (hd : DataOK d n off) (hs : Head d n off s) (h : pass e d s = .ok (.inl s')) : Head d n off s' := by
  obtain ⟨s1, s2, s3, h1, h2, h3, ⟨_, _, _, _, ⟨⟩⟩ | ⟨s4, t, rho, h4, _, _, h5⟩⟩ := pass_inv h
  have k1 := hs.advance hd h1
  have k2 : Head d n off s2 := by
    obtain ⟨q, hh, _, hq2, ⟨_, rfl⟩ | ⟨_, h⟩⟩ := dynamicPenalty_inv h2
    · rw [hq2]; exact k1.hist _
    · exact Head.bump hd (by rw [hq2]; exact k1.hist _) h
  have k3 := k2.lin hd h3
  have k4 : Head d n off s4 := by
    rcases h4 with ⟨_, rfl⟩ | ⟨_, _, h4⟩
    · exact k3
    · exact k3.bump hd h4
  rcases h5 with ⟨_, ⟨⟩⟩ | ⟨_, _, ⟨⟩⟩ | ⟨_, _, h5⟩
  exact k4.nextStep hd h5

/-- more about the initialisation -/
theorem init_more (hR : Ready o n) {i : RV × Obj α} (h : initializeSolver e o = .ok i) (hi : i.1 = .successfulReturn) :
    i.2.s.gTilde = o.d.g ∧ ((∃ Q A, i.2.d.sub = some (.osqp Q A)) ∨ (i.2.d.lb ≠ none ∧ i.2.d.ub ≠ none)) ∧
    ∃ d0 d' : Data α, initPhi d0 = .ok d' ∧ d0.dims = o.d.dims ∧ d0.sparse = o.d.sparse ∧ d0.L = o.d.L ∧ d0.R = o.d.R ∧
      d0.lbL = o.d.lbL ∧ d0.lbR = o.d.lbR ∧ d0.gPhi = o.d.gPhi ∧ d0.phiConst = o.d.phiConst ∧
      i.2.d.gPhi = d'.gPhi ∧ i.2.d.phiConst = d'.phiConst ∧ d0.Ls = o.d.Ls ∧ d0.Rs = o.d.Rs := by
  simp only [initializeSolver, bind_eq_ok] at h
  obtain ⟨c, hc, h⟩ := h
  obtain ⟨nd, bo, l, u, sub, y, w, hc2⟩ := chooseSolver_inv hc
  split at h
  · rename_i hne
    injection h with h
    rw [← h] at hi
    exact absurd hi hne
  · rename_i hne
    have hb := chooseSolver_box hc (not_not.mp hne)
    simp only [initRest, bind_eq_ok, initd_eq_ok, deref_eq_ok] at h
    obtain ⟨n', hn', g, hgg, gt', hgt, d', hd', h⟩ := h
    injection h with h
    obtain ⟨g0, hg0, lg0⟩ := hR.g
    have hcd : c.2.d.dims = some n := by rw [hc2]; exact hR.dims
    have hcg : c.2.d.g = some g0 := by rw [hc2]; exact hg0
    rw [hcd] at hn'
    injection hn' with hn'
    subst hn'
    rw [hcg] at hgg
    injection hgg with hgg
    subst hgg
    rw [copyN_ok lg0] at hgt
    injection hgt with hgt
    subst hgt
    refine ⟨?_, ?_, c.2.d, d', hd', ?_⟩
    · rw [← h, hg0]
      dsimp only
      split <;> rfl
    · rw [← h]
      dsimp only
      rcases initPhi_inv hd' with ⟨_, _, rfl⟩ | ⟨_, _, c, gp, _, _, rfl⟩ <;> exact hb
    · rw [← h, hc2]
      exact ⟨rfl, rfl, rfl, rfl, rfl, rfl, rfl, rfl, rfl, rfl, rfl, rfl⟩

/-- in dense mode: constant and linear part of the penalty -/
theorem initPhi_dns {d d' : Data α} {L R l r : List α} (h : initPhi d = .ok d') (hn : d.dims = some n) (hs : d.sparse = false)
    (hL : d.L = some L) (hR : d.R = some R) (hl : d.lbL = some l) (hr : d.lbR = some r) (lL : L.length = n.nComp * n.nV)
    (lR : R.length = n.nComp * n.nV) (ll : l.length = n.nComp) (lr : r.length = n.nComp) :
    d'.phiConst = facc zero n.nComp (fun k => gt l k *. gt r k) ∧
    d'.gPhi = some (tab n.nV fun j => -. (facc (facc zero n.nComp fun k => gt R (k * n.nV + j) *. gt l k) n.nComp fun k =>
      gt L (k * n.nV + j) *. gt r k)) := by
  unfold initPhi at h
  rw [if_neg (by simp [hl])] at h
  simp only [hn, hl, hr, initd_some, deref_some, ok_bind, dotProd_ok (m := n.nComp) (a := l) (b := r) (by omega) (by omega),
    addTMulDS, hs, hL, hR, Bool.false_eq_true, if_false] at h
  rw [addMatTMul_ok lR (by omega) (by simp), ok_bind, addMatTMul_ok lL (by omega) (by simp), ok_bind, grid_one,
    grid_one, loop_fill (fun j => -. (facc (facc zero n.nComp fun k => gt R (k * n.nV + j) *. gt l k) n.nComp fun k =>
      gt L (k * n.nV + j) *. gt r k)) _ _ _ (by simp), ok_bind] at h
  · injection h with h
    subst h
    exact ⟨rfl, rfl⟩
  · intro i hi
    rw [rd_ok (by simp; omega), ok_bind, wr_ok (by simp; omega), gt_pre _ _ _ (by simp; omega), if_neg (by omega),
      gt_tab _ hi]
    simp only [Nat.mul_one, Nat.add_zero]
    rw [gt_tab _ hi, show gt (List.replicate n.nV (zero : α)) i = zero by simp [gt, hi]]

/-- members at every head of the main loop -/
theorem Ready.head (hR : Ready o n) (h : AtHead e o d s) :
    ∃ off, DataOK d n off ∧ Head d n off s ∧ d.sparse = o.d.sparse ∧ d.opts = o.d.opts := by
  obtain ⟨s0, ⟨i, hi, hi1, rfl, hf⟩, h⟩ := h
  obtain ⟨i', hi', hall⟩ := initializeSolver_total (e := e) hR
  rw [hi] at hi'
  injection hi' with hi'
  subst hi'
  obtain ⟨off, hd, ha, hy, hqk, hidx, _, _, _, _, _, _, _, _, _, _, hop⟩ := hall hi1
  obtain ⟨nd, bo, l, u, sub, y, w, gt', pc, gp, hshape⟩ := initializeSolver_ok hi hi1
  refine ⟨off, hd, ?_, by rw [hshape], hop⟩
  clear hop
  induction h with
  | pass _ hp ih => exact ih.pass hd hp
  | start =>
    simp only [firstStep, bind_eq_ok] at hf
    obtain ⟨s1, h1, q, hq, hf⟩ := hf
    obtain ⟨v, lv, hv⟩ := firstGradient_ok hd ha
    rw [hv] at h1
    injection h1 with h1
    have a1 : ArrOK n s1 := by
      rw [← h1]
      exact { ha with gk := ⟨_, rfl, lv⟩ }
    split at hf
    · cases hf
    · rename_i hne
      obtain ⟨a2, y2⟩ := solveQP_arr hd a1 (by rw [← h1]; exact hy) hq (not_not.mp hne)
      obtain ⟨_, _, _, _, _, _, _, _, _, _, _, _, _, _, _, _, _, _, _, _, _, hq2⟩ := solveQP_inv hq
      simp only [bind_eq_ok, initd_eq_ok] at hf
      obtain ⟨s3, h3, r, hr, hf⟩ := hf
      obtain ⟨a, b, c, h4, hk⟩ := setQk_ok (s := q.2) hd a2.rho (by rw [hq2, ← h1]; exact hidx)
        (by rw [hq2, ← h1]; exact hqk)
      rw [h4] at h3
      injection h3 with h3
      injection hf with hf
      injection hf with hf
      subst hf
      subst h3
      refine ⟨{ a2 with }, hk.congr rfl rfl rfl, y2.congr rfl rfl, ?_⟩
      obtain ⟨g, hg, lg⟩ := hd.g
      obtain ⟨m1, _⟩ := init_more hR hi hi1
      refine ⟨g, 0, hg, lg, ?_, le_refl _, Or.inl ⟨?_, Or.inl rfl⟩⟩
      · show q.2.outer = _
        rw [hq2, ← h1, hshape]
      · show q.2.gTilde = _
        rw [hq2, ← h1]
        dsimp only
        rw [m1, ← hg, hshape]

end LCQ
