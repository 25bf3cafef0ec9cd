import Verif.Lemmas.RoundCert

/-!
# The members after loading dense data, with rounding errors
-/

set_option linter.unusedSectionVars false

namespace LCQ
open Scalar
open scoped Matrix

variable {α : Type} [Scalar α] {K : Type} [Field K] [LinearOrder K] [IsStrictOrderedRing K] {u t : K}
  {n : Dims} {e : Env α} {o o1 : Obj α} {a : DenseArgs α} {d : Data α}

theorem gt_mem {b : List α} {i : Nat} (h : i < b.length) : gt b i ∈ b := by
  simp [gt, List.getD_eq_getElem?_getD, List.getElem?_eq_getElem h]

theorem vec_none (F : Rounds α K u t) (m : Nat) : F.vec m ((none : Option (List α)).getD []) = 0 := by
  ext i
  simp [Rounds.vec, Rounds.v, F.zero]

theorem symVal_apx (F : Rounds α K u t) {L R : List α} {m p : Nat} {B D : Matrix (Fin m) (Fin p) K}
    (hL : ∀ (k : Fin m) (i : Fin p), Apx F 0 (gt L (k * p + i)) (B k i) |B k i|)
    (hR : ∀ (k : Fin m) (i : Fin p), Apx F 0 (gt R (k * p + i)) (D k i) |D k i|) (i j : Fin p) :
    Apx F (m + 2) (symVal L R m p i j) ((Bᵀ * D + Dᵀ * B) i j)
      (∑ k, ((|B k i| * |D k j| + t) + (|D k i| * |B k j| + t))) := by
  unfold symVal
  refine ((Apx.sum (f := fun k => gt L (k * p + i) *. gt R (k * p + j) +. gt R (k * p + i) *. gt L (k * p + j)) fun k =>
    ((hL k i).mul (hR k j)).add ((hR k i).mul (hL k j))).depth (by omega)).congr ?_ rfl
  simp only [Matrix.add_apply, Matrix.mul_apply, Matrix.transpose_apply, Finset.sum_add_distrib]

/-- the data with which the main loop runs -/
theorem load_apx (F : Rounds α K u t) (hb : Built o n)
    (hl0 : o.d.lbL = none ∧ o.d.lbR = none ∧ o.d.gPhi = none ∧ o.d.phiConst = zero) (hf : a.Fits n)
    (hp : a.lbL = none ↔ a.lbR = none) (h : loadDense e o a = .ok (.successfulReturn, o1)) {i : RV × Obj α}
    (hi : initializeSolver e o1 = .ok i) (hi1 : i.1 = .successfulReturn) :
    DataA F i.2.d (F.prob n a) := by
  obtain ⟨hR, _, hsp⟩ := hb.load hf hp h
  rcases loadDense_ok (e := e) hb.dims hb.nV hb.nComp hf with ⟨_, _, h'⟩ | ⟨_, _, _, h'⟩ | ⟨_, _, _, _, h'⟩ |
    ⟨_, hA, _, _, Q, g, L, R, hQ, hg, hL, hRR, lQ, lg, lL, lR, h'⟩
  · rw [h'] at h; injection h with h; injection h with h _; cases h
  · rw [h'] at h; injection h with h; injection h with h _; cases h
  · rw [h'] at h; injection h with h; injection h with h _; cases h
  rw [h'] at h
  injection h with h
  injection h with _ h
  subst h
  have hlA : n.nC * n.nV ≤ (a.A.getD []).length := by
    cases h : a.A with
    | none =>
      have : n.nC = 0 := by
        by_contra h0; exact hA ⟨h, by omega⟩
      simp [this]
    | some v => simpa using hf.A v h
  have hsz : n.nA * n.nV = n.nC * n.nV + n.nComp * n.nV + n.nComp * n.nV := by simp [Dims.nA]; ring
  obtain ⟨nd, bo, l, u', sub, y, w, gt', pc, gp, hshape⟩ := initializeSolver_ok hi hi1
  obtain ⟨_, hbox, d0, d', hphi, e1, e2, e3, e4, e5, e6, e7, e8, e9, e10, _⟩ := init_more hR hi hi1
  -- the matrices
  have aL : ∀ (k : Fin n.nComp) (i : Fin n.nV), Apx F 0 (gt (L.take (n.nComp * n.nV)) (k * n.nV + i))
      ((F.prob n a).L k i) |(F.prob n a).L k i| := by
    intro k i
    rw [gt_take (idx_lt k.2 i.2)]
    have : (F.prob n a).L k i = F.v (gt L (k * n.nV + i)) := by simp [Rounds.prob, Rounds.mat, hL, gt]
    rw [this]
    exact Apx.val F _
  have aR : ∀ (k : Fin n.nComp) (i : Fin n.nV), Apx F 0 (gt (R.take (n.nComp * n.nV)) (k * n.nV + i))
      ((F.prob n a).R k i) |(F.prob n a).R k i| := by
    intro k i
    rw [gt_take (idx_lt k.2 i.2)]
    have : (F.prob n a).R k i = F.v (gt R (k * n.nV + i)) := by simp [Rounds.prob, Rounds.mat, hRR, gt]
    rw [this]
    exact Apx.val F _
  have aA : ∀ (k : Fin n.nC) (i : Fin n.nV), Apx F 0 (gt ((a.A.getD []).take (n.nC * n.nV)) (k * n.nV + i))
      ((F.prob n a).A k i) |(F.prob n a).A k i| := by
    intro k i
    rw [gt_take (idx_lt k.2 i.2)]
    exact Apx.val F _
  have lL' : (L.take (n.nComp * n.nV)).length = n.nComp * n.nV := by simpa using lL
  have lR' : (R.take (n.nComp * n.nV)).length = n.nComp * n.nV := by simpa using lR
  have lA' : ((a.A.getD []).take (n.nC * n.nV)).length = n.nC * n.nV := by simpa using hlA
  have hsp' : i.2.d.sparse = false := by rw [hshape]; rfl
  have hlow : Apx F (n.nComp + 1) i.2.d.phiConst ((F.prob n a).lbL ⬝ᵥ (F.prob n a).lbR)
        (∑ k, (|(F.prob n a).lbL k| * |(F.prob n a).lbR k| + t)) ∧
      ((i.2.d.gPhi = none ∧ (F.prob n a).gPhi = 0) ∨
        AVec F (2 * n.nComp + 1) i.2.d.gPhi n.nV (F.prob n a).gPhi ((F.prob n a).magG t)) := by
    rw [e9, e10]
    cases hl : a.lbL with
    | none =>
      have hr := hp.mp hl
      have e5' : d0.lbL = none := by rw [e5]; simp [denseObj, bndMem, hl, hl0.1]
      have e6' : d0.lbR = none := by rw [e6]; simp [denseObj, bndMem, hr, hl0.2.1]
      have p1 : (F.prob n a).lbL = 0 := by simp only [Rounds.prob, hl]; exact vec_none F _
      have p2 : (F.prob n a).lbR = 0 := by simp only [Rounds.prob, hr]; exact vec_none F _
      unfold initPhi at hphi
      rw [if_pos ⟨e5', e6'⟩] at hphi
      injection hphi with hphi
      subst hphi
      refine ⟨?_, Or.inl ⟨by rw [e7]; exact hl0.2.2.1, ?_⟩⟩
      · rw [e8, p1, zero_dotProduct]
        have : (denseObj o n a Q g L R).d.phiConst = zero := hl0.2.2.2
        rw [this]
        refine (Apx.zero F).mono (by omega) (Finset.sum_nonneg fun k _ => ?_)
        have := F.t0
        positivity
      · rw [Prob.gPhi, p1, p2, Matrix.mulVec_zero, Matrix.mulVec_zero, add_zero, neg_zero]
    | some l =>
      cases hr : a.lbR with
      | none => rw [hp.mpr hr] at hl; cases hl
      | some r =>
        have e5' : d0.lbL = some (l.take n.nComp) := by rw [e5]; simp [denseObj, bndMem, hl]
        have e6' : d0.lbR = some (r.take n.nComp) := by rw [e6]; simp [denseObj, bndMem, hr]
        obtain ⟨c1, c2⟩ := initPhi_dns (n := n) hphi (by rw [e1]; exact hb.dims) (by rw [e2]; rfl) (by rw [e3]; rfl)
          (by rw [e4]; rfl) e5' e6' lL' lR' (by simpa using hf.lbL l hl) (by simpa using hf.lbR r hr)
        have al : ∀ k : Fin n.nComp, Apx F 0 (gt (l.take n.nComp) k) ((F.prob n a).lbL k) |(F.prob n a).lbL k| := by
          intro k
          rw [gt_take k.2]
          have : (F.prob n a).lbL k = F.v (gt l k) := by simp [Rounds.prob, Rounds.vec, hl, gt]
          rw [this]
          exact Apx.val F _
        have ar : ∀ k : Fin n.nComp, Apx F 0 (gt (r.take n.nComp) k) ((F.prob n a).lbR k) |(F.prob n a).lbR k| := by
          intro k
          rw [gt_take k.2]
          have : (F.prob n a).lbR k = F.v (gt r k) := by simp [Rounds.prob, Rounds.vec, hr, gt]
          rw [this]
          exact Apx.val F _
        refine ⟨?_, Or.inr ⟨_, c2, by simp, fun i => ?_⟩⟩
        · rw [c1]
          exact (Apx.sum (f := fun k => gt (l.take n.nComp) k *. gt (r.take n.nComp) k)
            fun k => (al k).mul (ar k)).depth (by omega)
        · rw [gt_tab _ i.2]
          have h1 := Apx.sum (f := fun k => gt (R.take (n.nComp * n.nV)) (k * n.nV + i) *. gt (l.take n.nComp) k)
            fun k => (aR k i).mul (al k)
          have h2 := h1.facc_fin (f := fun k => gt (L.take (n.nComp * n.nV)) (k * n.nV + i) *. gt (r.take n.nComp) k)
            fun k => ((aL k i).mul (ar k)).depth (by omega)
          exact h2.neg.depth (by omega)
  refine ⟨by rw [hshape]; exact hb.dims, hsp', ?_, ?_, ?_, ?_, ?_, ?_, ?_, ?_, ?_⟩
  · refine ⟨Q.take (n.nV * n.nV), by rw [hshape]; rfl, by simpa using lQ, fun i j => ?_⟩
    beta_reduce
    rw [gt_take (idx_lt i.2 j.2)]
    have : (F.prob n a).Q i j = F.v (gt Q (i * n.nV + j)) := by simp [Rounds.prob, Rounds.mat, hQ, gt]
    rw [this]
    exact Apx.val F _
  · refine ⟨_, by rw [hshape]; rfl, by rw [hsz]; simp; omega, fun i j => ?_⟩
    beta_reduce
    by_cases h1 : i.1 < n.nC
    · have := idx_lt h1 j.2
      rw [gt_append_left (by simp only [List.length_append]; omega), gt_append_left (by omega)]
      have e : (F.prob n a).AA i j = (F.prob n a).A ⟨i, h1⟩ j := by simp only [Prob.AA, stackRows, dif_pos h1]
      rw [e]
      exact aA ⟨i, h1⟩ j
    · by_cases h2 : i.1 < n.nC + n.nComp
      · have e : (F.prob n a).AA i j = (F.prob n a).L ⟨i - n.nC, by omega⟩ j := by
          simp only [Prob.AA, stackRows, dif_neg h1, dif_pos h2]
        have h3 : (i.1 - n.nC) * n.nV + j.1 < n.nComp * n.nV := idx_lt (by omega) j.2
        have h4 : i.1 * n.nV + j.1 = n.nC * n.nV + ((i.1 - n.nC) * n.nV + j.1) := by
          have : i.1 = n.nC + (i.1 - n.nC) := by omega
          conv_lhs => rw [this]
          ring
        rw [e, gt_append_left (by simp only [List.length_append]; omega), gt_append_right (by omega), lA', h4,
          Nat.add_sub_cancel_left]
        exact aL ⟨i - n.nC, by omega⟩ j
      · have hi := i.2
        simp only [Dims.nA] at hi
        have e : (F.prob n a).AA i j = (F.prob n a).R ⟨i - (n.nC + n.nComp), by omega⟩ j := by
          simp only [Prob.AA, stackRows, dif_neg h1, dif_neg h2]
        have h4 : i.1 * n.nV + j.1 = n.nC * n.nV + n.nComp * n.nV + ((i.1 - (n.nC + n.nComp)) * n.nV + j.1) := by
          have : i.1 = n.nC + n.nComp + (i.1 - (n.nC + n.nComp)) := by omega
          conv_lhs => rw [this]
          ring
        rw [e, gt_append_right (by simp only [List.length_append]; omega), List.length_append, lA', lL', h4,
          Nat.add_sub_cancel_left]
        exact aR ⟨i - (n.nC + n.nComp), by omega⟩ j
  · exact ⟨_, by rw [hshape]; rfl, lL', aL⟩
  · exact ⟨_, by rw [hshape]; rfl, lR', aR⟩
  · refine ⟨_, by rw [hshape]; rfl, by simp, fun i j => ?_⟩
    beta_reduce
    rw [gt_grid _ i.2 j.2]
    split
    · exact symVal_apx F aL aR i j
    · refine (symVal_apx F aL aR j i).congr ?_ ?_
      · exact congrFun (congrFun (F.prob n a).C_symm i) j
      · refine Finset.sum_congr rfl fun k _ => ?_
        ring
  · refine ⟨g.take n.nV, by rw [hshape]; rfl, by simpa using lg, fun i => ?_⟩
    beta_reduce
    rw [gt_take i.2]
    have : (F.prob n a).g i = F.v (gt g i) := by simp [Rounds.prob, Rounds.vec, hg, gt]
    rw [this]
    exact Apx.val F _
  · rcases hbox with ⟨Q', A', hq⟩ | hbox
    · exfalso
      obtain ⟨i', hi', hall⟩ := initializeSolver_total (e := e) hR
      rw [hi] at hi'
      injection hi' with hi'
      subst hi'
      obtain ⟨off, _, _, _, _, _, _, _, _, _, hos, _⟩ := hall hi1
      have := (hos ⟨Q', A', hq⟩).2.2
      exact absurd this (by simp [denseObj])
    · exact hbox.1
  · exact hlow.1
  · exact hlow.2

end LCQ
