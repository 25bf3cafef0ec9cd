import Verif.Lemmas.RoundEnd

/-!
# The tests of the last pass, with rounding errors
-/

set_option linter.unusedSectionVars false

namespace LCQ
open Scalar
open scoped Matrix

variable {α : Type} [Scalar α] {K : Type} [Field K] [LinearOrder K] [IsStrictOrderedRing K] {u t : K}
  {F : Rounds α K u t} {n : Dims} {P : Prob K n} {d : Data α} {s s' : St α} {e : Env α} {o o' : Obj α}

/-- the stationarity vector -/
theorem stat_apx (hd : DataA F d P) (hs : Head d n n.nV s) (hq : DenseQk d n s) {rho : α} (hr : s.rho = some rho)
    {x y : List α} (hx : s.xk = some x) (hy : s.yk = some y) (h : updateStationarity d s = .ok s') :
    ∃ b : Bool, (b = false → s.outer = some 0 ∨ P.gPhi = 0) ∧ (s.outer = some 0 → b = false) ∧
      AVec F (n.nV + n.nC + 2 * n.nComp + 11) s'.statk n.nV
        (P.penResidual (F.v rho) (F.vec n.nV x) (F.vec (n.nV + n.nA) y) - if b then 0 else F.v rho • P.gPhi)
        (P.magStat t (F.v rho) (F.vec n.nV x) (F.vec (n.nV + n.nA) y)) := by
  obtain ⟨b, hb1, hb2, gT, hg, lg, ag⟩ := gT_apx hd hs.gt hr
  obtain ⟨D, hD, lD, aD⟩ := qk_apx hd hq hr
  obtain ⟨A, hA, lA, aA⟩ := hd.A
  obtain ⟨y', hy', ly, hya⟩ := hs.y
  rw [hy] at hy'
  injection hy' with hy'
  subst hy'
  have lx : x.length = n.nV := by
    obtain ⟨x', h', l⟩ := hs.xk
    rw [hx] at h'
    injection h' with h'
    rw [h']; exact l
  have := updateStationarity_dns hd.dims hd.sparse hx hg hD hya hy hA hd.lb hs.statk hs.cstat hs.bstat lx lg lD (by simp)
    (by omega) lA h
  refine ⟨b, hb1, hb2, _, this, by simp, fun i => ?_⟩
  have ax : ∀ j : Fin n.nV, Apx F 0 (gt x j) (F.vec n.nV x j) |F.vec n.nV x j| := fun i => Apx.val F _
  have ay : ∀ k : Fin n.nA, Apx F 0 (gt (tab n.nA fun k => gt y (n.nV + k)) k) (yLin (F.vec (n.nV + n.nA) y) k)
      |yLin (F.vec (n.nV + n.nA) y) k| := by
    intro k
    rw [gt_tab _ k.2]
    exact Apx.val F _
  have ab : Apx F 0 (gt y i) (yBox (F.vec (n.nV + n.nA) y) i) |yBox (F.vec (n.nV + n.nA) y) i| := by
    have : yBox (F.vec (n.nV + n.nA) y) i = F.v (gt y i) := by
      rw [yBox, dif_pos rfl]; rfl
    rw [this]
    exact Apx.val F _
  rw [gt_tab _ i.2, ← stat_eq (sp := false) _ _ _ _ (by simp)]
  have hA' : n.nA = n.nC + 2 * n.nComp := rfl
  have h1 := (Apx.sum (f := fun k => gt D (i * n.nV + k) *. gt x k) fun j => (aD i j).mul (ax j)).one_mul
  have h2 := (h1.add' (ag i) (le_refl _)).one_mul
  have h3 := (Apx.sum (f := fun k => gt A (k * n.nV + i) *. gt (tab n.nA fun k => gt y (n.nV + k)) k) fun k =>
    (aA k i).mul (ay k)).neg_one_mul
  have h4 := (h2.add' h3 (le_refl _)).one_mul
  refine (h4.add' ab.neg_one_mul ?_).congr ?_ ?_
  · omega
  · simp only [Prob.stat, tr, Bool.false_eq_true, if_false, Pi.sub_apply, Pi.add_apply, ← sub_eq_add_neg]
    rfl
  · simp only [Prob.magStat]
    ring

/-! ## the largest entry -/

theorem mxmn_apx (F : Rounds α K u t) (a : Nat → α) (w : Nat → K) : ∀ m, (∀ i < m, F.val (a i) = some (w i)) →
    ∃ p q, F.val (mxmn a m).1 = some p ∧ F.val (mxmn a m).2 = some q ∧ q ≤ p ∧ ∀ i < m, q ≤ w i ∧ w i ≤ p := by
  intro m
  induction m with
  | zero => exact fun _ => ⟨0, 0, F.zero, F.zero, le_refl _, by omega⟩
  | succ m ih =>
    intro h
    obtain ⟨p, q, hp, hq, hqp, hb⟩ := ih fun i hi => h i (by omega)
    have hm := h m (by omega)
    simp only [mxmn]
    rw [F.lt _ _ _ _ hp hm, F.lt _ _ _ _ hm hq]
    by_cases h1 : p < w m
    · simp only [h1, decide_true, if_true]
      refine ⟨w m, q, hm, hq, by linarith, fun i hi => ?_⟩
      by_cases hi' : i = m
      · subst hi'; exact ⟨by linarith, le_refl _⟩
      · have := hb i (by omega); exact ⟨this.1, by linarith⟩
    · simp only [h1, decide_false, Bool.false_eq_true, if_false]
      by_cases h2 : w m < q
      · simp only [h2, decide_true, if_true]
        refine ⟨p, w m, hp, hm, by linarith, fun i hi => ?_⟩
        by_cases hi' : i = m
        · subst hi'; exact ⟨le_refl _, by linarith⟩
        · have := hb i (by omega); exact ⟨by linarith, this.2⟩
      · simp only [h2, decide_false, Bool.false_eq_true, if_false]
        refine ⟨p, q, hp, hq, hqp, fun i hi => ?_⟩
        by_cases hi' : i = m
        · subst hi'; exact ⟨by linarith, by linarith⟩
        · exact hb i (by omega)

/-- no finite entry is larger than the result of `MaxAbs`, if all entries are finite -/
theorem maxAbs_apx (F : Rounds α K u t) {st : List α} {m : Nat} (hm : m ≤ st.length) (w : Nat → K)
    (h : ∀ i < m, F.val (gt st i) = some (w i)) {r : α} (hr : maxAbs st m = .ok r) :
    ∃ z, F.val r = some z ∧ ∀ i < m, |w i| ≤ z := by
  rw [maxAbs_ok hm] at hr
  injection hr with hr
  subst hr
  obtain ⟨p, q, hp, hq, hqp, hb⟩ := mxmn_apx F _ w m h
  have hq' : F.val (-. (mxmn (gt st) m).2) = some (-q) := by rw [F.neg, hq]; rfl
  unfold maxAbsF getMax
  rw [F.lt _ _ _ _ hq' hp]
  by_cases h1 : -q < p
  · simp only [h1, decide_true, if_true]
    refine ⟨p, hp, fun i hi => ?_⟩
    have := hb i hi
    exact abs_le.mpr ⟨by linarith, this.2⟩
  · simp only [h1, decide_false, Bool.false_eq_true, if_false]
    refine ⟨-q, hq', fun i hi => ?_⟩
    have := hb i hi
    exact abs_le.mpr ⟨by linarith, by linarith⟩

/-! ## transformed multipliers -/

theorem shiftDuals_any (r : α) (t : List α) (o m N : Nat) (z : List α) (lz : z.length = N) (lt : m ≤ t.length)
    (h : o + m ≤ N) : shiftDuals r t o m z = .ok (tab N fun j =>
      if o ≤ j ∧ j < o + m then gt z j -. r *. gt t (j - o) else gt z j) := by
  unfold shiftDuals
  obtain ⟨w, h1, h2⟩ := loop_inv (fun k (w : List α) => w = tab N fun j =>
      if o ≤ j ∧ j < o + k then gt z j -. r *. gt t (j - o) else gt z j) m (fun i y => do
    let v ← rd y (o + i)
    let t ← rd t i
    wr y (o + i) (v -. r *. t)) z (by
      refine (eq_tab_gt lz).trans (tab_congr fun j hj => ?_)
      rw [if_neg (by omega)]) (by
      intro i hi w hw
      subst hw
      rw [rd_ok (by simp; omega), ok_bind, rd_ok (by omega), ok_bind, wr_ok (by simp; omega)]
      refine ⟨_, rfl, ?_⟩
      apply List.ext_getElem (by simp)
      intro j hj _
      have ht : ∀ (f : Nat → α) (j : Nat) (hj : j < (tab N f).length), (tab N f)[j] = f j := by intro f j hj; simp [tab]
      rw [List.getElem_set, ht, ht]
      by_cases hc : o + i = j
      · subst hc
        rw [if_pos rfl, if_pos (by omega), gt_tab _ (by omega), if_neg (by omega), Nat.add_sub_cancel_left]
      · rw [if_neg hc]
        by_cases hc2 : o ≤ j ∧ j < o + i
        · rw [if_pos hc2, if_pos (by omega)]
        · rw [if_neg hc2, if_neg (by omega)])
  rw [h1, h2]

/-- magnitude of the transformed multipliers -/
def Prob.magShift (P : Prob K n) (t : K) (r : K) {off : Nat} (x : Fin n.nV → K) (y : Fin (off + n.nA) → K) (j : Fin (off + n.nA)) : K :=
  if h1 : j.1 < off + n.nC then |y j|
  else if h2 : j.1 < off + n.nC + n.nComp then
    |y j| + (|r| * ∑ i, (|P.R ⟨j.1 - (off + n.nC), by omega⟩ i| * |x i| + t) + t)
  else |y j| + (|r| * ∑ i, (|P.L ⟨j.1 - (off + n.nC + n.nComp), by have := j.2; simp only [Dims.nA] at this; omega⟩ i| * |x i| + t) + t)

theorem duals_apx (hd : DataA F d P) {off : Nat} (ho : d.boxOff = some off) {rho : α} (hr : s.rho = some rho)
    {x y : List α} (hx : s.xk = some x) (lx : x.length = n.nV) (hy : s.yk = some y) (ly : y.length = off + n.nA)
    (h : transformDuals e d s = .ok s') :
    ∃ y', s'.yk = some y' ∧ y'.length = off + n.nA ∧ (∀ j < off + n.nC, gt y' j = gt y j) ∧ ∀ j : Fin (off + n.nA),
      Apx F (n.nV + 3) (gt y' j) (P.shifted (F.v rho) (F.vec n.nV x) (F.vec (off + n.nA) y) j)
        (P.magShift t (F.v rho) (F.vec n.nV x) (F.vec (off + n.nA) y) j) := by
  obtain ⟨L, hL, lL, aL⟩ := hd.L
  obtain ⟨R, hR, lR, aR⟩ := hd.R
  have hA : n.nA = n.nC + 2 * n.nComp := rfl
  simp only [transformDuals, hd.dims, ho, hr, hx, hy, initd_some, deref_some, ok_bind, mulDS, hd.sparse, hL, hR,
    Bool.false_eq_true, if_false] at h
  rw [matMul_ok lR (by omega) (by simp [Env.alloc]), ok_bind, grid_one,
    shiftDuals_any _ _ _ _ (off + n.nA) _ ly (by simp) (by omega), ok_bind, matMul_ok lL (by omega) (by simp), ok_bind, grid_one,
    shiftDuals_any _ _ _ _ (off + n.nA) _ (by simp) (by simp) (by omega), ok_bind] at h
  injection h with h
  subst h
  refine ⟨_, rfl, by simp, ?_, ?_⟩
  · intro j hj
    rw [gt_tab _ (by omega), if_neg (by omega), gt_tab _ (by omega), if_neg (by omega)]
  · intro j
    have hj := j.2
    have ax : ∀ i : Fin n.nV, Apx F 0 (gt x i) (F.vec n.nV x i) |F.vec n.nV x i| := fun i => Apx.val F _
    have ay : Apx F 0 (gt y j) (F.vec (off + n.nA) y j) |F.vec (off + n.nA) y j| := Apx.val F _
    rw [gt_tab _ hj, gt_tab _ hj]
    unfold Prob.shifted Prob.magShift
    by_cases h1 : j.1 < off + n.nC
    · rw [dif_pos h1, dif_pos h1, if_neg (by omega), if_neg (by omega)]
      exact ay.depth (by omega)
    · rw [dif_neg h1, dif_neg h1]
      by_cases h2 : j.1 < off + n.nC + n.nComp
      · rw [dif_pos h2, dif_pos h2, if_neg (by omega), if_pos (by omega), gt_tab _ (by omega)]
        have h3 := (Apx.val F rho).mul (Apx.sum (f := fun k => gt R ((j.1 - (off + n.nC)) * n.nV + k) *. gt x k)
          fun i => (aR ⟨j.1 - (off + n.nC), by omega⟩ i).mul (ax i))
        have h4 := (ay.depth (Nat.zero_le _)).sub h3
        simp only [Nat.mul_one, Nat.add_zero]
        exact h4.depth (by omega)
      · rw [dif_neg h2, dif_neg h2, if_pos (by omega), if_neg (by omega), gt_tab _ (by omega)]
        have h3 := (Apx.val F rho).mul (Apx.sum (f := fun k => gt L ((j.1 - (off + n.nC + n.nComp)) * n.nV + k) *. gt x k)
          fun i => (aL ⟨j.1 - (off + n.nC + n.nComp), by omega⟩ i).mul (ax i))
        have h4 := (ay.depth (Nat.zero_le _)).sub h3
        simp only [Nat.mul_one, Nat.add_zero]
        exact h4.depth (by omega)

/-- the residual with approximate multipliers -/
theorem residual_apx {off : Nat} {r : K} {x : Fin n.nV → K} {y y' : Fin (off + n.nA) → K} {E : K}
    (hbox : yBox y' = yBox y) (hA : yA (yLin y') = yA (yLin y))
    (h : ∀ j, |y' j - P.shifted r x y j| ≤ E * P.magShift t r x y j) (i : Fin n.nV) :
    |P.residual x y' i - (P.penResidual r x y - r • P.gPhi) i| ≤ E * P.magDual t r x y i := by
  rw [← residual_shifted]
  have hLm : ∀ k, |yL (yLin y') k - yL (yLin (P.shifted r x y)) k| ≤
      E * (|yL (yLin y) k| + (|r| * ∑ j, (|P.R k j| * |x j| + t) + t)) := by
    intro k
    have := h ⟨off + (n.nC + k), by have := k.2; simp only [Dims.nA]; omega⟩
    have h1 : ¬ off + (n.nC + k.1) < off + n.nC := by omega
    have h2 : off + (n.nC + k.1) < off + n.nC + n.nComp := by have := k.2; omega
    have h3 : off + (n.nC + k.1) - (off + n.nC) = k.1 := by omega
    simp only [Prob.magShift, dif_neg h1, dif_pos h2, h3, Fin.eta] at this
    exact this
  have hRm : ∀ k, |yR (yLin y') k - yR (yLin (P.shifted r x y)) k| ≤
      E * (|yR (yLin y) k| + (|r| * ∑ j, (|P.L k j| * |x j| + t) + t)) := by
    intro k
    have := h ⟨off + (n.nC + n.nComp + k), by have := k.2; simp only [Dims.nA]; omega⟩
    have h1 : ¬ off + (n.nC + n.nComp + k.1) < off + n.nC := by omega
    have h2 : ¬ off + (n.nC + n.nComp + k.1) < off + n.nC + n.nComp := by omega
    have h3 : off + (n.nC + n.nComp + k.1) - (off + n.nC + n.nComp) = k.1 := by omega
    simp only [Prob.magShift, dif_neg h1, dif_neg h2, h3, Fin.eta] at this
    exact this
  have e1 : P.residual x y' i - P.residual x (P.shifted r x y) i =
      - (∑ k, P.L k i * (yL (yLin y') k - yL (yLin (P.shifted r x y)) k)) -
        ∑ k, P.R k i * (yR (yLin y') k - yR (yLin (P.shifted r x y)) k) := by
    simp only [Prob.residual, shifted_A, shifted_box, hbox, hA, Pi.sub_apply, Matrix.mulVec, dotProduct,
      Matrix.transpose_apply, mul_sub, Finset.sum_sub_distrib]
    ring
  rw [e1, Prob.magDual, mul_add, Finset.mul_sum, Finset.mul_sum]
  refine (abs_sub _ _).trans (add_le_add ?_ ?_)
  · rw [abs_neg]
    refine (Finset.abs_sum_le_sum_abs _ _).trans (Finset.sum_le_sum fun k _ => ?_)
    rw [abs_mul]
    have := mul_le_mul_of_nonneg_left (hLm k) (abs_nonneg (P.L k i))
    linarith
  · refine (Finset.abs_sum_le_sum_abs _ _).trans (Finset.sum_le_sum fun k _ => ?_)
    rw [abs_mul]
    have := mul_le_mul_of_nonneg_left (hRm k) (abs_nonneg (P.R k i))
    linarith

end LCQ
