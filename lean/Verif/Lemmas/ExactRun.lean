import Verif.Lemmas.ExactQk
import Verif.Lemmas.Shape

/-!
# Exact arithmetic: the functions of the main loop

`DataIs d n P off`: the initialised object holds the problem `P`; `XSt` describes the iteration data,
all of which is finite.
-/

set_option linter.unusedSectionVars false

namespace LCQ
open Scalar Ext
open scoped Matrix

variable {K : Type} [Field K] [LinearOrder K] {n : Dims}

/-- the initialised object holds the problem -/
structure DataIs (d : Data (Ext K)) (n : Dims) (P : Prob K n) (off : Nat) : Prop where
  dims : d.dims = some n
  nV : n.nV ≠ 0
  boxOff : d.boxOff = some off
  nDuals : d.nDuals = some (off + n.nA)
  g : d.g = some (ev P.g)
  Q : MatIs d.sparse d.Q d.Qs n.nV n.nV P.Q
  C : MatIs d.sparse d.C d.Cs n.nV n.nV P.C
  A : MatIs d.sparse d.A d.As n.nA n.nV P.AA
  L : MatIs d.sparse d.L d.Ls n.nComp n.nV P.L
  R : MatIs d.sparse d.R d.Rs n.nComp n.nV P.R
  phiC : d.phiConst = fin (P.lbL ⬝ᵥ P.lbR)
  gPhi : d.gPhi = some (ev P.gPhi) ∨ (d.gPhi = none ∧ P.gPhi = 0)
  sub : SubOK d n off
  box : (off = n.nV ∧ (d.lb ≠ none ∨ d.ub ≠ none)) ∨ (off = 0 ∧ d.lb = none ∧ d.ub = none)

/-- the penalised Hessian in place, `Q + r C` -/
def QkIs (d : Data (Ext K)) (n : Dims) (P : Prob K n) (s : St (Ext K)) (r : K) : Prop :=
  if d.sparse then ∃ Q C : CSC K, d.Qs = some Q.emb ∧ d.Cs = some C.emb ∧
    s.Qks = some (mcsc Q.emb C.emb n.nV (Ent.val (fin r))) ∧ s.idxC = cpos 0 (mall Q.emb C.emb n.nV)
  else DnsIs s.Qk n.nV n.nV (P.Q + r • P.C)

/-- the linear term `g_tilde` before and after the first penalty update -/
def Prob.gT (P : Prob K n) (b : Bool) (r : K) : Fin n.nV → K := if b then P.g + r • P.gPhi else P.g

/-- finite iteration data: penalty parameter `r`, point `x`, step `p`, step length `a`, multipliers `y`;
`b` tells whether a penalty update has been made -/
structure XSt (d : Data (Ext K)) (n : Dims) (P : Prob K n) (off : Nat) (s : St (Ext K)) (r : K) (b : Bool)
    (x p : Fin n.nV → K) (a : K) (y : Fin (off + n.nA) → K) : Prop where
  rho : s.rho = some (fin r)
  Qk : QkIs d n P s r
  gTilde : s.gTilde = some (ev (P.gT b r))
  xk : s.xk = some (ev x)
  pk : s.pk = some (ev p)
  alpha : s.alpha = some (fin a)
  yk : s.yk = some (ev y)
  ykA : s.ykA = some (ev (yLin y))
  gk : Has s.gk n.nV
  xnew : Has s.xnew n.nV
  lkTmp : Has s.lkTmp n.nV
  statk : Has s.statk n.nV
  cstat : Has s.cstat n.nV
  bstat : Has s.bstat n.nV

variable {d : Data (Ext K)} {P : Prob K n} {off : Nat} {s : St (Ext K)} {r a : K} {b : Bool} {x p : Fin n.nV → K}
  {y : Fin (off + n.nA) → K} {e : Env (Ext K)}

theorem emb_csc_inj {S T : CSC K} (h : S.emb = T.emb) : S = T := by
  obtain ⟨a1, a2, a3, a4, a5, a6⟩ := S
  obtain ⟨b1, b2, b3, b4, b5, b6⟩ := T
  simp only [CSC.emb, CSC.mk.injEq] at h
  obtain ⟨h1, h2, h3, h4, h5, h6⟩ := h
  rw [h1, h2, h3, h4, h5, emb_inj h6]

theorem QkIs.mat (hd : DataIs d n P off) (h : QkIs d n P s r) :
    MatIs d.sparse s.Qk s.Qks n.nV n.nV (P.Q + r • P.C) := by
  unfold QkIs at h
  unfold MatIs
  rcases hd.Q.cases with ⟨hsp, Q, hQ, vQ, mQ, nQ, dQ⟩ | ⟨hsp, _⟩
  · rcases hd.C.cases with ⟨_, C, hC, vC, mC, nC, dC⟩ | ⟨hsp', _⟩
    · rw [if_pos hsp] at h ⊢
      obtain ⟨Q', C', h1, h2, h3, _⟩ := h
      rw [hQ] at h1; rw [hC] at h2
      injection h1 with h1; injection h2 with h2
      have h1 := emb_csc_inj h1
      have h2 := emb_csc_inj h2
      subst h1 h2
      rw [h3]
      exact mcsc_is vQ mQ nQ vC mC nC r dQ dC
    · simp [hsp] at hsp'
  · rw [hsp] at h ⊢
    exact h

theorem QkIs.congr {s' : St (Ext K)} (h : QkIs d n P s r) (h1 : s'.Qk = s.Qk) (h2 : s'.Qks = s.Qks)
    (h3 : s'.idxC = s.idxC) : QkIs d n P s' r := by
  unfold QkIs at h ⊢
  rw [h1, h2, h3]
  exact h

/-! ## evaluation -/

theorem updateLinearization_x (hd : DataIs d n P off) {gT : Fin n.nV → K} (hr : s.rho = some (fin r))
    (hx : s.xk = some (ev x)) (hg : s.gTilde = some (ev gT)) (hk : Has s.gk n.nV) :
    updateLinearization d s = .ok { s with gk := some (ev (r • (P.C *ᵥ x) + gT)) } := by
  obtain ⟨gk, hgk, lgk⟩ := hk
  simp only [updateLinearization, hd.dims, hr, hx, hg, hgk, initd_some, deref_some, ok_bind,
    affineDS_exact hd.C r x gT lgk, tr_symm d.sparse P.C_symm]

theorem getPhi_x [IsStrictOrderedRing K] (hd : DataIs d n P off) (hx : s.xk = some (ev x)) :
    getPhi d s = .ok (fin (P.phi x)) := by
  have hlin : phiLin d.gPhi (ev x) n.nV = .ok (fin (P.gPhi ⬝ᵥ x)) := by
    rcases hd.gPhi with h | ⟨h, h0⟩
    · rw [h]
      simp only [phiLin, dotProd_exact, ok_bind, zero_fin, fin_add, zero_add]
    · rw [h, h0]
      simp [phiLin]
  simp only [getPhi, hd.dims, hx, hlin, initd_some, deref_some, ok_bind, quadDS_exact hd.C, hd.phiC, fin_add,
    two_fin, fin_div _ _ (two_ne_zero (α := K)), P.phi_eq]

theorem getObj_x [IsStrictOrderedRing K] (hd : DataIs d n P off) (hx : s.xk = some (ev x)) :
    getObj d s = .ok (fin (P.obj x)) := by
  simp only [getObj, hd.dims, hx, hd.g, initd_some, deref_some, ok_bind, quadDS_exact hd.Q, dotProd_exact, fin_add,
    two_fin, fin_div _ _ (two_ne_zero (α := K))]
  rfl

theorem getMerit_x [IsStrictOrderedRing K] (hd : DataIs d n P off) (hx : s.xk = some (ev x)) (hq : QkIs d n P s r) :
    getMerit d s = .ok (fin (P.g ⬝ᵥ x + x ⬝ᵥ ((P.Q + r • P.C) *ᵥ x) / 2)) := by
  simp only [getMerit, hd.dims, hx, hd.g, initd_some, deref_some, ok_bind, quadDS_exact (hq.mat hd), dotProd_exact,
    fin_add, two_fin, fin_div _ _ (two_ne_zero (α := K))]

theorem updateStep_x (hd : DataIs d n P off) (hs : XSt d n P off s r b x p a y) :
    updateStep d s = .ok { s with xk := some (ev (x + a • p)) } := by
  simp only [updateStep, hd.dims, hs.xk, hs.alpha, hs.pk, initd_some, deref_some, ok_bind, one_fin, wva_dst, one_smul]

/-- the value of `statk`: penalised gradient minus the multiplier terms -/
def Prob.stat (P : Prob K n) (sp : Bool) (r : K) (b : Bool) (x : Fin n.nV → K) (y : Fin (off + n.nA) → K) :
    Fin n.nV → K := tr sp (P.Q + r • P.C) *ᵥ x + P.gT b r - P.AAᵀ *ᵥ yLin y - yBox y

theorem boxStat_x (hd : DataIs d n P off) (hs : XSt d n P off s r b x p a y) (v : Fin n.nV → K) :
    ∃ c, boxStat d s n.nV (ev v) = .ok (ev (v - yBox y), c) ∧ Has c n.nV := by
  unfold boxStat
  rcases hd.box with ⟨ho, hb⟩ | ⟨ho, h1, h2⟩
  · rw [if_pos hb]
    obtain ⟨c, hc, lc⟩ := hs.bstat
    simp only [hs.yk, hc, deref_some, ok_bind]
    rw [copy_loop_ok' (by simp; omega) lc, ok_bind]
    have : tab n.nV (gt (ev y)) = ev (yBox y) := by
      apply tab_eq_ev
      intro i
      rw [gt_ev' y (by have := i.2; omega), yBox, dif_pos ho]
    rw [this, one_fin, fin_neg, wva_dst, ok_bind]
    refine ⟨_, by rw [one_smul, neg_one_smul, ← sub_eq_add_neg], ⟨_, rfl, by simp⟩⟩
  · rw [if_neg (by simp [h1, h2])]
    have : yBox y = 0 := by
      funext i
      rw [yBox, dif_neg (by have := hd.nV; omega)]
      rfl
    rw [this, sub_zero]
    exact ⟨_, rfl, hs.bstat⟩

theorem updateStationarity_x (hd : DataIs d n P off) (hs : XSt d n P off s r b x p a y) :
    ∃ c w, updateStationarity d s = .ok { s with statk := some (ev (P.stat d.sparse r b x y)), cstat := c, bstat := w } ∧
      Has c n.nV ∧ Has w n.nV := by
  obtain ⟨st, hst, lst⟩ := hs.statk
  obtain ⟨c, hc, lc⟩ := hs.cstat
  obtain ⟨w, hw, lw⟩ := boxStat_x hd hs (tr d.sparse (P.Q + r • P.C) *ᵥ x + P.gT b r - P.AAᵀ *ᵥ yLin y)
  refine ⟨some (ev (P.AAᵀ *ᵥ yLin y)), w, ?_, ⟨_, rfl, by simp⟩, lw⟩
  simp only [updateStationarity, hd.dims, hs.xk, hs.gTilde, hst, hs.ykA, hc, initd_some, deref_some, ok_bind]
  rw [one_fin, affineDS_exact (hs.Qk.mat hd) _ _ _ lst, ok_bind, tmulDS_exact hd.A _ lc, ok_bind, fin_neg, wva_dst,
    ok_bind, one_smul, one_smul, neg_one_smul, ← sub_eq_add_neg, hw, ok_bind]
  rfl

/-- state after the first part of a pass -/
theorem XSt.step (hs : XSt d n P off s r b x p a y) (x' : Fin n.nV → K) :
    XSt d n P off { s with xk := some (ev x') } r b x' p a y :=
  { hs with xk := rfl }

theorem stat_congr {s' : St (Ext K)} {r a : K} {b : Bool} {x p : Fin n.nV → K} {y : Fin (off + n.nA) → K}
    (hs : XSt d n P off s r b x p a y) (hQ : s'.Qk = s.Qk) (hQs : s'.Qks = s.Qks) (hi : s'.idxC = s.idxC)
    (h1 : s'.rho = s.rho) (h2 : s'.gTilde = s.gTilde) (h3 : s'.xk = s.xk) (h4 : s'.pk = s.pk) (h5 : s'.alpha = s.alpha)
    (h6 : s'.yk = s.yk) (h7 : s'.ykA = s.ykA) (h8 : Has s'.gk n.nV) (h9 : s'.xnew = s.xnew) (h10 : s'.lkTmp = s.lkTmp)
    (h11 : Has s'.statk n.nV) (h12 : Has s'.cstat n.nV) (h13 : Has s'.bstat n.nV) : XSt d n P off s' r b x p a y where
  rho := h1 ▸ hs.rho
  Qk := hs.Qk.congr hQ hQs hi
  gTilde := h2 ▸ hs.gTilde
  xk := h3 ▸ hs.xk
  pk := h4 ▸ hs.pk
  alpha := h5 ▸ hs.alpha
  yk := h6 ▸ hs.yk
  ykA := h7 ▸ hs.ykA
  gk := h8
  xnew := h9 ▸ hs.xnew
  lkTmp := h10 ▸ hs.lkTmp
  statk := h11
  cstat := h12
  bstat := h13

/-! ## penalty updates -/

/-- `setQk`: any previous contents of the penalised Hessian are replaced -/
theorem setQk_x (hd : DataIs d n P off) (hr : s.rho = some (fin r)) (hq : d.sparse = false → Has s.Qk (n.nV * n.nV))
    (hi : d.sparse = true → s.idxC = []) : ∃ A B I, setQk d s = .ok { s with Qk := A, Qks := B, idxC := I } ∧
      QkIs d n P { s with Qk := A, Qks := B, idxC := I } r := by
  rcases hd.Q.cases with ⟨hsp, Q, hQ, vQ, mQ, nQ, dQ⟩ | ⟨hsp, Q, hQ, lQ, dQ⟩
  · rcases hd.C.cases with ⟨_, C, hC, vC, mC, nC, dC⟩ | ⟨hsp', _⟩
    · have h0 := hi hsp
      refine ⟨s.Qk, _, _, by
        simp only [setQk, hd.dims, hr, hsp, hQ, hC, initd_some, deref_some, ok_bind, if_true]
        rw [mergeQC_ok (fin r) Q.emb C.emb vQ.emb.toValidPtr vC.emb.toValidPtr n.nV nQ nC, ok_bind], ?_⟩
      unfold QkIs
      rw [if_pos hsp]
      refine ⟨Q, C, hQ, hC, ?_, by simp [h0]⟩
      simp only [mcsc, cscOf, buildOf, createCSC]
      simp
    · simp [hsp] at hsp'
  · rcases hd.C.cases with ⟨hsp', _⟩ | ⟨_, C, hC, lC, dC⟩
    · simp [hsp] at hsp'
    · obtain ⟨qk, hqk, lqk⟩ := hq hsp
      refine ⟨_, s.Qks, s.idxC, by
        simp only [setQk, hd.dims, hr, hsp, hQ, hC, hqk, initd_some, deref_some, ok_bind, Bool.false_eq_true, if_false]
        rw [weightedAdd_ok (by simpa [Src.val] using lQ) (by simpa [Src.val] using lC) lqk, ok_bind], ?_⟩
      unfold QkIs
      rw [hsp]
      refine ⟨grid n.nV n.nV fun i j => Q.getD (i * n.nV + j) 0 + r * C.getD (i * n.nV + j) 0, ?_, by simp, ?_⟩
      · rw [← emb_grid]
        simp [Src.val, gt_emb]
      · rw [mat_grid, ← dQ, ← dC]
        rfl

theorem bump_emb (r t : K) (e : Ent K) :
    Ent.bump (fin t) (Ent.val (fin r)) e.emb = Ent.val (fin (r + t)) e.emb := by
  obtain ⟨i, q, c⟩ := e
  cases q <;> cases c <;> simp [Ent.bump, Ent.val, Ent.emb]
  · ring
  · ring

theorem mall_emb (Q C : CSC K) (m : Nat) :
    ∃ l : List (Ent K), mall Q.emb C.emb m = l.map Ent.emb := by
  refine ⟨(List.range m).flatMap fun j => mergeL (colK Q j) (colK C j), ?_⟩
  simp only [mall, List.map_flatMap]
  congr 1
  funext j
  rw [mcol, col_emb, col_emb, mergeL_emb]

/-- `updateQk` after the penalty parameter has been multiplied by `f` -/
theorem updateQk_x (hd : DataIs d n P off) {f : K} (hf : d.opts.factor = fin f) (f0 : f ≠ 0)
    (hr : s.rho = some (fin (r * f))) (hq : QkIs d n P s r) : ∃ A B, updateQk d s = .ok { s with Qk := A, Qks := B } ∧
      QkIs d n P { s with Qk := A, Qks := B } (r * f) := by
  rcases hd.Q.cases with ⟨hsp, Q, hQ, vQ, mQ, nQ, dQ⟩ | ⟨hsp, Q, hQ, lQ, dQ⟩
  · rcases hd.C.cases with ⟨_, C, hC, vC, mC, nC, dC⟩ | ⟨hsp', _⟩
    · unfold QkIs at hq
      rw [if_pos hsp] at hq
      obtain ⟨Q', C', h1, h2, h3, h4⟩ := hq
      rw [hQ] at h1; rw [hC] at h2
      injection h1 with h1; injection h2 with h2
      have h1 := emb_csc_inj h1
      have h2 := emb_csc_inj h2
      subst h1 h2
      have hfac : (fin (r * f) *. (one -. one /. fin f) : Ext K) = fin (r * f - r) := by
        rw [one_fin, fin_div _ _ f0, fin_sub, fin_mul]
        congr 1
        rw [mul_sub, mul_one, mul_assoc, one_div, mul_inv_cancel₀ f0, mul_one]
      have hx : (mall Q.emb C.emb n.nV).map (Ent.bump (fin (r * f - r)) (Ent.val (fin r))) =
          (mall Q.emb C.emb n.nV).map (Ent.val (fin (r * f))) := by
        obtain ⟨l, hl⟩ := mall_emb Q C n.nV
        rw [hl, List.map_map, List.map_map]
        apply List.map_congr_left
        intro t _
        simp only [Function.comp_apply, bump_emb]
        rw [show r + (r * f - r) = r * f by ring]
      refine ⟨s.Qk, some (mcsc Q.emb C.emb n.nV (Ent.val (fin (r * f)))), by
        simp only [updateQk, hd.dims, hr, hsp, h3, hC, initd_some, deref_some, ok_bind, if_true, hf, hfac, h4, mcsc_x]
        rw [bumpQks_ok _ Q.emb C.emb vC.emb.toValidPtr _ n.nV nC, ok_bind, hx, mcsc_setx], ?_⟩
      unfold QkIs
      rw [if_pos hsp]
      exact ⟨Q, C, hQ, hC, rfl, h4⟩
    · simp [hsp] at hsp'
  · rcases hd.C.cases with ⟨hsp', _⟩ | ⟨_, C, hC, lC, dC⟩
    · simp [hsp] at hsp'
    · unfold QkIs at hq
      rw [hsp] at hq
      obtain ⟨qk, hqk, lqk, _⟩ := hq
      have lqk' : (emb qk).length = n.nV * n.nV := by simpa using lqk
      refine ⟨_, s.Qks, by
        simp only [updateQk, hd.dims, hr, hsp, hQ, hC, hqk, initd_some, deref_some, ok_bind, Bool.false_eq_true,
          if_false]
        rw [weightedAdd_ok (by simpa [Src.val] using lQ) (by simpa [Src.val] using lC) lqk', ok_bind], ?_⟩
      unfold QkIs
      rw [hsp]
      refine ⟨grid n.nV n.nV fun i j => Q.getD (i * n.nV + j) 0 + r * f * C.getD (i * n.nV + j) 0, ?_, by simp, ?_⟩
      · rw [← emb_grid]
        simp [Src.val, gt_emb]
      · rw [mat_grid, ← dQ, ← dC]
        rfl

/-- a penalty update -/
theorem bump_x (hd : DataIs d n P off) {f : K} (hf : d.opts.factor = fin f) (f0 : f ≠ 0)
    (hs : XSt d n P off s r b x p a y) {s' : St (Ext K)} (h : bump d s = .ok s') :
    XSt d n P off s' (r * f) true x p a y ∧ s'.statk = s.statk ∧ s'.calls = s.calls ∧ s'.ans = s.ans := by
  simp only [bump, updatePenalty, hs.rho, initd_some, ok_bind, hf, fin_mul, bind_eq_ok] at h
  obtain ⟨s2, ⟨s1, h1, h2⟩, s3, h3, h⟩ := h
  obtain ⟨A, B, h1', hq⟩ := updateQk_x hd hf f0 (r := r)
    (s := { s with
      hist := if d.opts.nDyn > 0 then [] else s.hist
      rho := some (fin (r * f))
      stats := (s.stats.updateRhoOpt (fin (r * f))).2 }) rfl (hs.Qk.congr rfl rfl rfl)
  rw [h1'] at h1
  injection h1 with h1
  subst h1
  have h2' : ∃ T, s2 = { s with
      hist := if d.opts.nDyn > 0 then [] else s.hist
      rho := some (fin (r * f))
      stats := (s.stats.updateRhoOpt (fin (r * f))).2
      Qk := A
      Qks := B
      gTilde := T } ∧ T = some (ev (P.gT true (r * f))) := by
    unfold updateGTilde at h2
    rcases hd.gPhi with hg | ⟨hg, hg0⟩
    · rw [hg] at h2
      simp only [hd.dims, hd.g, hs.gTilde, initd_some, deref_some, ok_bind, one_fin] at h2
      rw [wva_buf _ _ _ _ (by simp), ok_bind] at h2
      injection h2 with h2
      refine ⟨_, h2.symm, ?_⟩
      rw [one_smul]
      rfl
    · rw [hg] at h2
      injection h2 with h2
      refine ⟨_, h2.symm, ?_⟩
      rw [hs.gTilde]
      congr 2
      simp [Prob.gT, hg0]
  obtain ⟨T, rfl, hT⟩ := h2'
  obtain ⟨o, q, ho, hm, hq', rfl⟩ := updateOuterIter_inv h3
  injection h with h
  subst h
  exact ⟨⟨rfl, hq.congr rfl rfl rfl, hT, hs.xk, hs.pk, hs.alpha, hs.yk, hs.ykA, hs.gk, hs.xnew, hs.lkTmp, hs.statk,
    hs.cstat, hs.bstat⟩, rfl, rfl, rfl⟩

/-! ## step length -/

/-- step length for curvature `q` and slope `l` -/
def alphaOf (q l : K) : K := if 0 < q ∧ l < 0 then min (-l / q) 1 else 1

theorem getOptimalStepLength_x (hd : DataIs d n P off) (hs : XSt d n P off s r b x p a y) :
    ∃ lt, getOptimalStepLength d s = .ok { s with
      lkTmp := lt
      alpha := some (fin (alphaOf (p ⬝ᵥ ((P.Q + r • P.C) *ᵥ p))
        (p ⬝ᵥ (tr d.sparse (P.Q + r • P.C) *ᵥ x + P.gT b r)))) } ∧ Has lt n.nV := by
  obtain ⟨lt, hlt, llt⟩ := hs.lkTmp
  refine ⟨some (ev (tr d.sparse (P.Q + r • P.C) *ᵥ x + P.gT b r)), ?_, ⟨_, rfl, by simp⟩⟩
  simp only [getOptimalStepLength, hd.dims, hs.xk, hs.pk, hs.gTilde, hlt, initd_some, deref_some, ok_bind,
    quadDS_exact (hs.Qk.mat hd), one_fin, affineDS_exact (hs.Qk.mat hd) _ _ _ llt, one_smul, dotProd_exact, zero_fin,
    fin_neg]
  congr 3
  unfold alphaOf
  by_cases hc : 0 < p ⬝ᵥ ((P.Q + r • P.C) *ᵥ p) ∧ p ⬝ᵥ (tr d.sparse (P.Q + r • P.C) *ᵥ x + P.gT b r) < 0
  · rw [if_pos hc, if_pos (by simpa using hc), fin_div _ _ hc.1.ne', stdMin]
    by_cases h1 : 1 < -(p ⬝ᵥ (tr d.sparse (P.Q + r • P.C) *ᵥ x + P.gT b r)) / (p ⬝ᵥ ((P.Q + r • P.C) *ᵥ p))
    · rw [if_pos (by simpa using h1), min_eq_right h1.le]
    · rw [if_neg (by simpa using h1), min_eq_left (not_lt.mp h1)]
  · rw [if_neg hc, if_neg (by simpa using hc)]

end LCQ
