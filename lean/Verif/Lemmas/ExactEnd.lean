import Verif.Lemmas.ExactPass
import Verif.Props.MaxAbs

/-!
# Exact arithmetic: beginning and end of a run
-/

set_option linter.unusedSectionVars false

namespace LCQ
open Scalar Ext
open scoped Matrix

section
variable {α : Type} [Scalar α]

/-- box bounds are set exactly for the qpOASES wrappers -/
theorem chooseSolver_box {e : Env α} {o : Obj α} {r : RV × Obj α} (h : chooseSolver e o = .ok r)
    (hr : r.1 = .successfulReturn) :
    (∃ Q A, r.2.d.sub = some (.osqp Q A)) ∨ (r.2.d.lb ≠ none ∧ r.2.d.ub ≠ none) := by
  simp only [chooseSolver, bind_eq_ok] at h
  obtain ⟨n, _, h⟩ := h
  split at h
  · split at h
    · injection h with h
      rw [← h] at hr; cases hr
    · simp only [bind_eq_ok] at h
      obtain ⟨b, hb, h⟩ := h
      obtain ⟨l, u, hbl, hlu, _⟩ := setBoxes_inv hb
      split at h
      · rename_i hne
        injection h with h
        rw [← h] at hr; exact absurd hr hne
      · rename_i hne
        simp only [bind_eq_ok] at h
        obtain ⟨_, _, _, _, _, _, _, _, h⟩ := h
        injection h with h
        right
        rw [← h]
        simp only [hbl]
        exact hlu (not_not.mp hne)
  · split at h
    · split at h
      · injection h with h
        rw [← h] at hr; cases hr
      · simp only [bind_eq_ok] at h
        obtain ⟨b, hb, h⟩ := h
        obtain ⟨l, u, hbl, hlu, _⟩ := setBoxes_inv hb
        split at h
        · rename_i hne
          injection h with h
          rw [← h] at hr; exact absurd hr hne
        · rename_i hne
          simp only [bind_eq_ok] at h
          obtain ⟨_, _, _, _, _, _, _, _, h⟩ := h
          injection h with h
          right
          rw [← h]
          simp only [hbl]
          exact hlu (not_not.mp hne)
    · split at h
      · split at h
        · injection h with h
          rw [← h] at hr; cases hr
        · simp only [bind_eq_ok] at h
          obtain ⟨y, _, h⟩ := h
          split at h
          · injection h with h
            rw [← h] at hr; cases hr
          · split at h
            · injection h with h
              rw [← h] at hr; cases hr
            · simp only [bind_eq_ok] at h
              obtain ⟨_, _, _, _, _, _, _, _, w, _, h⟩ := h
              injection h with h
              left
              rw [← h]
              exact ⟨_, _, rfl⟩
      · injection h with h
        rw [← h] at hr; cases hr

end

/-! ## multipliers -/

section
variable {K : Type} [Field K] {n : Dims} {P : Prob K n} {off : Nat} {r : K} {b : Bool} {x : Fin n.nV → K}

theorem sum_split {m p : Nat} (f : Fin (m + 2 * p) → K) : ∑ i, f i = ∑ i : Fin m, f ⟨i, by omega⟩ +
    ∑ i : Fin p, f ⟨m + i, by omega⟩ + ∑ i : Fin p, f ⟨m + p + i, by omega⟩ := by
  have hc : m + p + p = m + 2 * p := by omega
  rw [← Fin.sum_congr' f hc, Fin.sum_univ_add, Fin.sum_univ_add]
  rfl

/-- the rows of the stacked matrix separate -/
theorem stack_tmul (z : Fin n.nA → K) : P.AAᵀ *ᵥ z = P.Aᵀ *ᵥ yA z + P.Lᵀ *ᵥ yL z + P.Rᵀ *ᵥ yR z := by
  ext c
  simp only [Matrix.mulVec, dotProduct, Matrix.transpose_apply, Pi.add_apply, Prob.AA]
  have := sum_split (m := n.nC) (p := n.nComp) (fun i : Fin n.nA => stackRows n P.A P.L P.R i c * z i)
  refine this.trans ?_
  congr 1
  · congr 1
    · apply Finset.sum_congr rfl
      intro i _
      simp only [stackRows, yA, dif_pos i.2]
      rfl
    · apply Finset.sum_congr rfl
      intro i _
      have h1 : ¬ n.nC + i.1 < n.nC := by omega
      have h2 : n.nC + i.1 < n.nC + n.nComp := by have := i.2; omega
      simp only [stackRows, yL, dif_neg h1, dif_pos h2, Nat.add_sub_cancel_left, Fin.eta]
      rfl
  · apply Finset.sum_congr rfl
    intro i _
    have h1 : ¬ n.nC + n.nComp + i.1 < n.nC := by omega
    have h2 : ¬ n.nC + n.nComp + i.1 < n.nC + n.nComp := by omega
    simp only [stackRows, yR, dif_neg h1, dif_neg h2, Nat.add_sub_cancel_left, Fin.eta]
    rfl

/-- the multipliers after `transformDuals` -/
def Prob.shifted (P : Prob K n) (r : K) (x : Fin n.nV → K) (y : Fin (off + n.nA) → K) : Fin (off + n.nA) → K := fun j =>
  if h1 : j.1 < off + n.nC then y j
  else if h2 : j.1 < off + n.nC + n.nComp then y j - r * (P.R *ᵥ x) ⟨j.1 - (off + n.nC), by omega⟩
  else y j - r * (P.L *ᵥ x) ⟨j.1 - (off + n.nC + n.nComp), by have := j.2; simp only [Dims.nA] at this; omega⟩

theorem shifted_A (y : Fin (off + n.nA) → K) : yA (yLin (P.shifted r x y)) = yA (yLin y) := by
  ext i
  have h : off + i.1 < off + n.nC := by have := i.2; omega
  simp only [yA, yLin, Prob.shifted, dif_pos h]

theorem shifted_L (y : Fin (off + n.nA) → K) : yL (yLin (P.shifted r x y)) = yL (yLin y) - r • (P.R *ᵥ x) := by
  ext i
  have h1 : ¬ off + (n.nC + i.1) < off + n.nC := by omega
  have h2 : off + (n.nC + i.1) < off + n.nC + n.nComp := by have := i.2; omega
  have h3 : off + (n.nC + i.1) - (off + n.nC) = i.1 := by omega
  simp only [yL, yLin, Prob.shifted, dif_neg h1, dif_pos h2, h3, Fin.eta, Pi.sub_apply, Pi.smul_apply, smul_eq_mul]

theorem shifted_R (y : Fin (off + n.nA) → K) : yR (yLin (P.shifted r x y)) = yR (yLin y) - r • (P.L *ᵥ x) := by
  ext i
  have h1 : ¬ off + (n.nC + n.nComp + i.1) < off + n.nC := by omega
  have h2 : ¬ off + (n.nC + n.nComp + i.1) < off + n.nC + n.nComp := by omega
  have h3 : off + (n.nC + n.nComp + i.1) - (off + n.nC + n.nComp) = i.1 := by omega
  simp only [yR, yLin, Prob.shifted, dif_neg h1, dif_neg h2, h3, Fin.eta, Pi.sub_apply, Pi.smul_apply, smul_eq_mul]

theorem shifted_box (y : Fin (off + n.nA) → K) : yBox (P.shifted r x y) = yBox y := by
  ext i
  unfold yBox
  by_cases h : off = n.nV
  · have h1 : i.1 < off + n.nC := by have := i.2; omega
    rw [dif_pos h, dif_pos h]
    simp only [Prob.shifted, dif_pos h1]
  · rw [dif_neg h, dif_neg h]

end

variable {K : Type} [Field K] [LinearOrder K] {n : Dims} {d : Data (Ext K)} {P : Prob K n} {off : Nat}
  {s : St (Ext K)} {r a : K} {b : Bool} {x p : Fin n.nV → K} {y : Fin (off + n.nA) → K} {e : Env (Ext K)}

/-! ## initialisation -/

theorem initPhi_x {d d' : Data (Ext K)} (h : initPhi d = .ok d') (hn : d.dims = some n)
    (hL : MatIs d.sparse d.L d.Ls n.nComp n.nV P.L) (hR : MatIs d.sparse d.R d.Rs n.nComp n.nV P.R)
    (hl : (d.lbL = none ∧ d.lbR = none ∧ P.lbL = 0 ∧ P.lbR = 0 ∧ d.gPhi = none ∧ d.phiConst = .fin 0) ∨
      (VecIs d.lbL n.nComp P.lbL ∧ VecIs d.lbR n.nComp P.lbR)) :
    d'.phiConst = fin (P.lbL ⬝ᵥ P.lbR) ∧ (d'.gPhi = some (ev P.gPhi) ∨ (d'.gPhi = none ∧ P.gPhi = 0)) := by
  unfold initPhi at h
  rcases hl with ⟨h1, h2, h3, h4, h5, h6⟩ | ⟨h1, h2⟩
  · rw [if_pos ⟨h1, h2⟩] at h
    injection h with h
    subst h
    refine ⟨by rw [h6, h3, zero_dotProduct], Or.inr ⟨h5, ?_⟩⟩
    rw [Prob.gPhi, h3, h4, Matrix.mulVec_zero, Matrix.mulVec_zero, add_zero, neg_zero]
  · rw [vecIs_iff] at h1 h2
    rw [if_neg (by simp [h1])] at h
    have hz : List.replicate n.nV (zero : Ext K) = ev (0 : Fin n.nV → K) := by
      rw [zero_fin]
      simp only [ev, emb, List.map_ofFn]
      rw [← List.ofFn_const]
      rfl
    have hneg : ∀ v : Fin n.nV → K, loop n.nV (fun i b => do let v ← rd b i; wr b i (-. v)) (ev v) = .ok (ev (-v)) := by
      intro v
      rw [loop_fill (fun i => -. (gt (ev v) i)) _ _ _ (by simp)]
      · congr 1
        apply tab_eq_ev
        intro i
        rw [gt_ev, fin_neg, Pi.neg_apply]
      · intro i hi
        rw [rd_ok (by simp; omega), ok_bind, wr_ok (by simp; omega), gt_pre _ _ _ (by simp; omega), if_neg (by omega)]
    simp only [hn, h1, h2, initd_some, deref_some, ok_bind, dotProd_exact, hz, addTMulDS_exact hR, addTMulDS_exact hL,
      hneg] at h
    injection h with h
    subst h
    refine ⟨rfl, Or.inl ?_⟩
    simp only [Prob.gPhi, zero_add]

theorem init_x {o : Obj (Ext K)} (hR : Ready o n) (hH : Holds o n P) {i : RV × Obj (Ext K)}
    (h : initializeSolver e o = .ok i) (hi : i.1 = .successfulReturn) :
    ∃ off, DataOK i.2.d n off ∧ DataIs i.2.d n P off ∧ ArrOK n i.2.s ∧ HasOpt i.2.s.yk (off + n.nA) ∧
      (i.2.d.sparse = false → Has i.2.s.Qk (n.nV * n.nV)) ∧ (i.2.d.sparse = true → i.2.s.idxC = []) ∧
      i.2.s.gTilde = some (ev P.g) ∧ i.2.s.rho = some o.d.opts.rho0 ∧ i.2.s.alpha = some (fin 1) ∧
      i.2.s.outer = some 0 ∧ i.2.s.xk = o.s.xk ∧ i.2.s.calls = o.s.calls ∧ i.2.d.opts = o.d.opts ∧
      i.2.d.sparse = o.d.sparse ∧ i.2.s.rnd = o.s.rnd := by
  obtain ⟨i', hi', hall⟩ := initializeSolver_total (e := e) hR
  rw [h] at hi'
  injection hi' with hi'
  subst hi'
  obtain ⟨off, h1, h2, h3, h4, h5, _, h6, _⟩ := hall hi
  obtain ⟨nd, bo, l, u, sub, y, w, gt', pc, gp, hshape⟩ := initializeSolver_ok h hi
  have hg : o.d.g = some (ev P.g) := vecIs_iff.mp hH.g
  have hmore : (∃ Q A, i.2.d.sub = some (.osqp Q A)) ∨ (i.2.d.lb ≠ none ∧ i.2.d.ub ≠ none) := by
    simp only [initializeSolver, bind_eq_ok] at h
    obtain ⟨c, hc, h⟩ := h
    split at h
    · rename_i hne
      injection h with h
      rw [← h] at hi
      exact absurd hi hne
    · rename_i hne
      have hb := chooseSolver_box hc (not_not.mp hne)
      simp only [initRest, bind_eq_ok] at h
      obtain ⟨n', _, g, _, gt', _, d', hd', h⟩ := h
      injection h with h
      rw [← h]
      simp only
      rcases initPhi_inv hd' with ⟨_, _, rfl⟩ | ⟨_, _, c, gp, _, _, rfl⟩ <;> exact hb
  have hphi : i.2.s.gTilde = some (ev P.g) ∧ i.2.d.phiConst = fin (P.lbL ⬝ᵥ P.lbR) ∧
      (i.2.d.gPhi = some (ev P.gPhi) ∨ (i.2.d.gPhi = none ∧ P.gPhi = 0)) := by
    simp only [initializeSolver, bind_eq_ok] at h
    obtain ⟨c, hc, h⟩ := h
    obtain ⟨nd, bo, l, u, sub, y, w, hc2⟩ := chooseSolver_inv hc
    split at h
    · rename_i hne
      injection h with h
      rw [← h] at hi
      exact absurd hi hne
    · simp only [initRest, bind_eq_ok, initd_eq_ok, deref_eq_ok] at h
      obtain ⟨n', hn', g, hgg, gt', hgt, d', hd', h⟩ := h
      injection h with h
      have hcd : c.2.d.dims = some n := by rw [hc2]; exact hH.dims
      rw [hcd] at hn'
      injection hn' with hn'
      subst hn'
      have hcg : c.2.d.g = some (ev P.g) := by rw [hc2]; exact hg
      rw [hcg] at hgg
      injection hgg with hgg
      subst hgg
      rw [copyN_ev] at hgt
      injection hgt with hgt
      subst hgt
      have := initPhi_x (P := P) hd' hcd (by rw [hc2]; exact hH.mats.L) (by rw [hc2]; exact hH.mats.R)
        (by rw [hc2]; exact hH.low)
      rw [← h]
      refine ⟨?_, this⟩
      dsimp only
      split <;> rfl
  refine ⟨off, h1, ?_, h2, h3, h4, h5, hphi.1, by rw [hshape], by rw [hshape, one_fin], by rw [hshape], by rw [hshape], h6,
    by rw [hshape], by rw [hshape], by rw [hshape]⟩
  refine ⟨h1.dims, hR.nV, h1.boxOff, h1.nDuals, by rw [hshape]; exact hg, ?_, ?_, ?_, ?_, ?_, hphi.2.1, hphi.2.2, h1.sub, ?_⟩
  · rw [hshape]; exact hH.mats.Q
  · rw [hshape]; exact hH.C
  · rw [hshape]; exact hH.mats.A
  · rw [hshape]; exact hH.mats.L
  · rw [hshape]; exact hH.mats.R
  · rcases h1.sub with ⟨Q, A, hs, ho⟩ | ⟨Q, A, hs, ho⟩ | ⟨Q, A, hs, _, _, ho, hl, hu⟩
    · rcases hmore with ⟨_, _, h'⟩ | h'
      · rw [hs] at h'; cases h'
      · exact Or.inl ⟨ho, Or.inl h'.1⟩
    · rcases hmore with ⟨_, _, h'⟩ | h'
      · rw [hs] at h'; cases h'
      · exact Or.inl ⟨ho, Or.inl h'.1⟩
    · exact Or.inr ⟨ho, hl, hu⟩

theorem firstGradient_x (hd : DataIs d n P off) (hk : Has s.gk n.nV) (hr : s.rho = some (fin r))
    (hx : s.xk = some (ev x)) (hg : s.gTilde = some (ev P.g)) : firstGradient d s = .ok { s with
      gk := some (ev (if d.opts.zeroFirst then P.g else r • (P.C *ᵥ x) + P.g)) } := by
  unfold firstGradient
  split
  · obtain ⟨gk, hgk, lgk⟩ := hk
    simp only [hd.dims, hd.g, hgk, initd_some, deref_some, ok_bind]
    rw [copy_loop_ok' (by simp) lgk, ok_bind]
    congr 3
    exact (eq_tab_gt (by simp)).symm
  · exact updateLinearization_x hd hr hx hg hk

/-- the main loop is entered with the penalised Hessian in place and a full first step -/
theorem enters_x {o : Obj (Ext K)} (hR : Ready o n) (hH : Holds o n P) {x0 : Fin n.nV → K} (hx0 : o.s.xk = some (ev x0))
    {r0 : K} (hr0 : o.d.opts.rho0 = fin r0) (he : FinAns e) {d : Data (Ext K)} {s0 : St (Ext K)} (h : Enters e o d s0) :
    ∃ off, DataOK d n off ∧ DataIs d n P off ∧ d.opts = o.d.opts ∧ d.sparse = o.d.sparse ∧
    ∃ (v : Fin n.nV → K) (y : Fin (off + n.nA) → K) (sub : Sub (Ext K)) (lA uA : List (Ext K)) (y0 : Option (List (Ext K))),
      XSt d n P off s0 r0 false x0 (v - x0) 1 y ∧ OutB s0 false ∧ d.sub = some sub ∧ d.lbA = some lA ∧ d.ubA = some uA ∧
      QpOk sub (e.qp o.s.calls ⟨sub, true, ev (if d.opts.zeroFirst then P.g else r0 • (P.C *ᵥ x0) + P.g), lA, uA,
        o.s.xk, y0, d.lb, d.ub, d.opts.qpoases, d.opts.osqp⟩) ∧
      AnsIs sub (e.qp o.s.calls ⟨sub, true, ev (if d.opts.zeroFirst then P.g else r0 • (P.C *ᵥ x0) + P.g), lA, uA,
        o.s.xk, y0, d.lb, d.ub, d.opts.qpoases, d.opts.osqp⟩) v y := by
  obtain ⟨i, hi, hi1, rfl, hf⟩ := h
  obtain ⟨off, h1, h2, h3, h4, h5, h6, h7, h8, h9, h10, h11, h12, h13, h14, _⟩ := init_x hR hH hi hi1
  refine ⟨off, h1, h2, h13, h14, ?_⟩
  rw [hr0] at h8
  rw [hx0] at h11
  simp only [firstStep, firstGradient_x h2 h3.gk h8 h11 h7, ok_bind, bind_eq_ok] at hf
  obtain ⟨q, hq, hf⟩ := hf
  by_cases hne : q.1 = .successfulReturn
  · rw [if_neg (by simp [hne])] at hf
    obtain ⟨v, y, w, sub, lA, uA, g1, g2, g3, g4, g5, g6⟩ := solveQP_x h1 hq hne he rfl (by simp) h11 h3.xnew h4 h3.ykA h3.pk
    have q1 : q.2.rho = some (fin r0) := by rw [g6]; exact h8
    obtain ⟨A, B, I, k1, k2⟩ := setQk_x h2 (s := q.2) (r := r0) q1 (by rw [g6]; exact h5) (by rw [g6]; exact h6)
    simp only [k1, ok_bind, q1, initd_some] at hf
    injection hf with hf
    injection hf with hf
    subst hf
    refine ⟨v, y, sub, lA, uA, i.2.s.yk, ?_, ?_, g1, g2, g3, ?_, ?_⟩
    · refine ⟨rfl, k2.congr rfl rfl rfl, ?_, ?_, ?_, ?_, ?_, ?_, ?_, ?_, ?_, ?_, ?_, ?_⟩
      · simp only; rw [g6]; exact h7
      · simp only; rw [g6]; exact h11
      · simp only; rw [g6]
      · simp only; rw [g6]; exact h9
      · simp only; rw [g6]
      · simp only; rw [g6]
      · simp only; rw [g6]; exact ⟨_, rfl, by simp⟩
      · simp only; rw [g6]; exact ⟨_, rfl, by simp⟩
      · simp only; rw [g6]; exact h3.lkTmp
      · simp only; rw [g6]; exact h3.statk
      · simp only; rw [g6]; exact h3.cstat
      · simp only; rw [g6]; exact h3.bstat
    · refine ⟨0, ?_, le_refl _, by simp⟩
      simp only; rw [g6]; exact h10
    · have : qpReq i.2.d ({ i.2.s with gk := some (ev (if i.2.d.opts.zeroFirst then P.g else r0 • (P.C *ᵥ x0) + P.g)) } : St (Ext K)) true sub
        (ev (if i.2.d.opts.zeroFirst then P.g else r0 • (P.C *ᵥ x0) + P.g)) lA uA = _ := rfl
      rw [← h12, hx0, ← h11]
      exact g4
    · rw [← h12, hx0, ← h11]
      exact g5
  · rw [if_pos (by simpa using hne)] at hf
    cases hf

theorem shiftDuals_eq (t : List (Ext K)) (o m N : Nat) (z : List (Ext K)) (lz : z.length = N) (lt : m ≤ t.length)
    (h : o + m ≤ N) : shiftDuals (fin r) t o m z = .ok (tab N fun j =>
      if o ≤ j ∧ j < o + m then gt z j -. fin r *. gt t (j - o) else gt z j) := by
  unfold shiftDuals
  obtain ⟨w, h1, h2⟩ := loop_inv (fun k (w : List (Ext K)) => w = tab N fun j =>
      if o ≤ j ∧ j < o + k then gt z j -. fin r *. gt t (j - o) else gt z j) m (fun i y => do
    let v ← rd y (o + i)
    let t ← rd t i
    wr y (o + i) (v -. fin r *. t)) z (by
      refine (eq_tab_gt lz).trans (tab_congr fun j hj => ?_)
      rw [if_neg (by omega)]) (by
      intro i hi w hw
      subst hw
      rw [rd_ok (by simp; omega), ok_bind, rd_ok (by omega), ok_bind, wr_ok (by simp; omega)]
      refine ⟨_, rfl, ?_⟩
      apply List.ext_getElem (by simp)
      intro j hj _
      have ht : ∀ (f : Nat → Ext K) (j : Nat) (hj : j < (tab N f).length), (tab N f)[j] = f j := by intro f j hj; simp [tab]
      rw [List.getElem_set, ht, ht]
      by_cases hc : o + i = j
      · subst hc
        rw [if_pos rfl, if_pos (by omega), gt_tab _ (by omega), if_neg (by omega), Nat.add_sub_cancel_left]
      · rw [if_neg hc]
        by_cases hc2 : o ≤ j ∧ j < o + i
        · rw [if_pos hc2, if_pos (by omega)]
        · rw [if_neg hc2, if_neg (by omega)])
  rw [h1, h2]

theorem transformDuals_x (hd : DataIs d n P off) (hr : s.rho = some (fin r)) (hx : s.xk = some (ev x)) (hy : s.yk = some (ev y)) :
    transformDuals e d s = .ok { s with yk := some (ev (P.shifted r x y)) } := by
  have hA : n.nA = n.nC + 2 * n.nComp := rfl
  simp only [transformDuals, hd.dims, hd.boxOff, hr, hx, hy, initd_some, deref_some, ok_bind]
  rw [mulDS_exact hd.R _ (by simp [Env.alloc]), ok_bind, shiftDuals_eq _ _ _ (off + n.nA) _ (by simp) (by simp) (by omega), ok_bind,
    mulDS_exact hd.L _ (by simp), ok_bind, shiftDuals_eq _ _ _ (off + n.nA) _ (by simp) (by simp) (by omega), ok_bind]
  congr 3
  apply tab_eq_ev
  intro j
  have hj := j.2
  rw [gt_tab _ hj]
  unfold Prob.shifted
  by_cases h1 : j.1 < off + n.nC
  · rw [dif_pos h1, if_neg (by omega), if_neg (by omega), gt_ev]
  · rw [dif_neg h1]
    by_cases h2 : j.1 < off + n.nC + n.nComp
    · rw [dif_pos h2, if_neg (by omega), if_pos (by omega), gt_ev, gt_ev' _ (by omega), fin_mul, fin_sub]
    · rw [dif_neg h2, if_pos (by omega), if_neg (by omega), gt_ev, gt_ev' _ (by omega), fin_mul, fin_sub]

/-! ## the last pass -/

theorem stationarityCheck_x [IsStrictOrderedRing K] (hd : DataIs d n P off) {v : Fin n.nV → K} (hv : s.statk = some (ev v)) {ts : K}
    (ht : d.opts.statTol = fin ts) (h : stationarityCheck d s = .ok true) : ∀ i, |v i| < ts := by
  obtain ⟨m, h1, h2, _⟩ := C06_finite (List.ofFn v)
  rw [List.length_ofFn] at h1
  simp only [stationarityCheck, hd.dims, hv, ht, initd_some, deref_some, ok_bind, ev, h1] at h
  injection h with h
  have hm : m < ts := by simpa using h
  intro i
  exact lt_of_le_of_lt (h2 _ (List.mem_ofFn.mpr ⟨i, rfl⟩)) hm

theorem complementarityCheck_x [IsStrictOrderedRing K] (hd : DataIs d n P off) (hx : s.xk = some (ev x)) {tc : K}
    (ht : d.opts.complTol = fin tc) {c : Bool} (h : complementarityCheck d s = .ok c) : c = decide (P.phi x < tc) := by
  simp only [complementarityCheck, getPhi_x hd hx, ok_bind, ht, fin_lt] at h
  injection h with h
  exact h.symm

/-- a pass that ends the run with success: iterate, multipliers, and the two tests that were passed -/
theorem pass_success [IsStrictOrderedRing K] (hd : DataIs d n P off) (hs : XSt d n P off s r b x p a y) (hb : OutB s b)
    {ts tc : K} (hts : d.opts.statTol = fin ts) (htc : d.opts.complTol = fin tc) {q : RV × St (Ext K)}
    (h : pass e d s = .ok (.inr q)) (hq : q.1 = .successfulReturn) :
    P.phi (x + a • p) < tc ∧ (∀ i, |P.stat d.sparse r b (x + a • p) y i| < ts) ∧ OutB q.2 b ∧
      q.2.rho = some (fin r) ∧ q.2.xk = some (ev (x + a • p)) ∧ q.2.ykA = some (ev (yLin y)) ∧
      q.2.yk = some (ev (P.shifted r (x + a • p) y)) ∧ q.2.gTilde = some (ev (P.gT b r)) ∧
      q.2.statk = some (ev (P.stat d.sparse r b (x + a • p) y)) ∧ q.2.calls = s.calls := by
  obtain ⟨s1, s2, s3, h1, h2, h3, ⟨hst, hco, q', hq', hqq⟩ | ⟨s4, t, rho, h4, _, _, h5⟩⟩ := pass_inv h
  · injection hqq with hqq
    subst hqq
    obtain ⟨x1, v1, o1, c1⟩ := advance_x hd hs h1
    obtain ⟨hh, gk, rfl⟩ := no_update_before_success h2 h3 hco
    have hphi := complementarityCheck_x hd (by exact x1.xk) htc hco
    have hphi : P.phi (x + a • p) < tc := by simpa using hphi
    refine ⟨hphi, stationarityCheck_x hd (by exact v1) hts hst, ?_⟩
    rw [accept, transformDuals_x hd (by exact x1.rho) (by exact x1.xk) (by exact x1.yk)] at hq'
    simp only [ok_bind, bind_eq_ok, initd_eq_ok] at hq'
    obtain ⟨s6, h6, t, ht, hq'⟩ := hq'
    obtain ⟨t', _, rfl⟩ := determine_inv h6
    injection hq' with hq'
    have : q.2.rho = some (fin r) ∧ q.2.xk = some (ev (x + a • p)) ∧ q.2.ykA = some (ev (yLin y)) ∧
      q.2.yk = some (ev (P.shifted r (x + a • p) y)) ∧ q.2.gTilde = some (ev (P.gT b r)) ∧
      q.2.statk = some (ev (P.stat d.sparse r b (x + a • p) y)) ∧ q.2.calls = s.calls ∧ q.2.outer = s.outer := by
      rw [← hq']
      split
      · exact ⟨x1.rho, x1.xk, x1.ykA, rfl, x1.gTilde, v1, c1, o1⟩
      · exact ⟨x1.rho, x1.xk, x1.ykA, rfl, x1.gTilde, v1, c1, o1⟩
    obtain ⟨g1, g2, g3, g4, g5, g6, g7, g8⟩ := this
    refine ⟨?_, g1, g2, g3, g4, g5, g6, g7⟩
    obtain ⟨k, hk, hk2⟩ := hb
    exact ⟨k, by rw [g8]; exact hk, hk2⟩
  · exfalso
    rcases h5 with ⟨_, h5⟩ | ⟨_, _, h5⟩ | ⟨_, _, h5⟩
    · injection h5 with h5; rw [h5] at hq; cases hq
    · injection h5 with h5; rw [h5] at hq; cases hq
    · obtain ⟨gk, q', _, ⟨hne, h6⟩ | ⟨_, _, _, _, _, ⟨⟩⟩⟩ := nextStep_inv h5
      injection h6 with h6
      rw [h6] at hq
      exact hne hq

end LCQ
