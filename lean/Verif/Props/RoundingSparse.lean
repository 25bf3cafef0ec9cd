import Verif.Lemmas.RoundSparseLoad
import Verif.Props.Drift

/-!
# C64: what success means in sparse mode when the arithmetic rounds

The sparse counterpart of C57.  Three things are different.  Entries of `L'R + R'L` which are computed as almost zero are not
stored; this adds a term with the threshold `z` (`RoundsZ`, see `Verif/Spec/RoundingSparse.lean`).  The penalised Hessian is
updated in place, hence the error grows with the number of penalty updates (C63).  The Hessian is used column by column,
hence the statements are about the problem with the transposed Hessian (`Prob.flip`), which is the same problem if the
Hessian is symmetric.
-/

set_option linter.unusedSectionVars false

namespace LCQ
open Scalar
open scoped Matrix

variable {α : Type} [Scalar α] {K : Type} [Field K] [LinearOrder K] [IsStrictOrderedRing K] {u t z : K}
  {n : Dims} {e : Env α} {o o1 o' : Obj α} {a : SparseArgs α} {fuel : Nat}

/-- an object is constructed, a sparse problem is loaded and solved successfully -/
structure SolvedS (e : Env α) (fuel : Nat) (o : Obj α) (n : Dims) (a : SparseArgs α) (o1 o' : Obj α) : Prop where
  built : Built o n
  idx : o.s.idxC = []
  low : LowUnset o
  fits : a.Fits n
  sorted : a.Sorted
  pair : a.lbL = none ↔ a.lbR = none
  load : loadSparse e o a = .ok (.successfulReturn, o1)
  run : runSolver e fuel o1 = .ok (some (.successfulReturn, o'))

/-- the last pass of a successful run -/
theorem SolvedS.last (F : RoundsZ α K u t z) (h : SolvedS e fuel o n a o1 o') :
    ∃ (D : Matrix (Fin n.nV) (Fin n.nV) K) (off : Nat), (∀ i j, |D i j| ≤ z) ∧ DataS F.toRounds o'.d (F.probS n a) D ∧
    ((off = n.nV ∧ o'.d.lb ≠ none) ∨ (off = 0 ∧ o'.d.lb = none ∧ o'.d.ub = none)) ∧ o'.d.opts = o.d.opts ∧
    ∃ (s w w' : St α) (v m rho : α) (st x y : List α), Head o'.d n off s ∧ SparseQk o'.d n s ∧ o'.d.boxOff = some off ∧
      getPhi o'.d o'.s = .ok v ∧ (v <. o'.d.opts.complTol) = true ∧
      o'.s.statk = some st ∧ maxAbs st n.nV = .ok m ∧ (m <. o'.d.opts.statTol) = true ∧
      updateStationarity o'.d s = .ok w ∧ w.statk = some st ∧ s.xk = some x ∧ o'.s.xk = some x ∧ s.rho = some rho ∧
      o'.s.rho = some rho ∧ s.outer = o'.s.outer ∧ s.ykA = o'.s.ykA ∧ s.yk = some y ∧ w'.yk = some y ∧
      w'.xk = some x ∧ w'.rho = some rho ∧ transformDuals e o'.d w' = .ok { w' with yk := o'.s.yk } := by
  obtain ⟨hR, hopt, hsp, _⟩ := h.built.loadSparse h.idx h.fits h.pair h.load
  obtain ⟨off, s0, s, w, w', v, m, st, hd, hat, hs, ⟨x', hx'⟩, h1, h2, h3, h4, h5, h6, h7, h8, h9, h10, h11, h12, h13, h14, h15⟩ :=
    success_head hR h.run
  obtain ⟨hqk, ho, _⟩ := head_sparse hR hsp hat
  obtain ⟨s1, ⟨i, hi, hi1, hdi, _⟩, _⟩ := hat
  obtain ⟨D, hz, hD⟩ := load_apxS F h.built h.idx h.low h.fits h.sorted h.pair h.load hi hi1
  obtain ⟨_, hbox, _⟩ := init_more hR hi hi1
  rw [← hdi] at hD hbox
  have hoff : (off = n.nV ∧ o'.d.lb ≠ none) ∨ (off = 0 ∧ o'.d.lb = none ∧ o'.d.ub = none) := by
    rcases hd.sub with ⟨_, _, hsub, ho⟩ | ⟨_, _, hsub, ho⟩ | ⟨_, _, _, _, _, ho, hl, hu⟩
    · rcases hbox with ⟨_, _, hos⟩ | hbox
      · rw [hsub] at hos; cases hos
      · exact Or.inl ⟨ho, hbox.1⟩
    · rcases hbox with ⟨_, _, hos⟩ | hbox
      · rw [hsub] at hos; cases hos
      · exact Or.inl ⟨ho, hbox.1⟩
    · exact Or.inr ⟨ho, hl, hu⟩
  obtain ⟨x, hx, _⟩ := hs.xk
  obtain ⟨rho, hr⟩ := hs.rho
  obtain ⟨y, hy, _⟩ := hs.y
  refine ⟨D, off, hz, hD, hoff, ho.trans hopt, s, w, w', v, m, rho, st, x, y, hs, ?_, hd.boxOff, h1, h2, h3, h4, h5, h6, h7, hx,
    by rw [← h8, hx], hr, by rw [← h9, hr], h10, h11, hy, by rw [h12, hy], by rw [h13, hx], by rw [h14, hr], h15⟩
  rw [hx']
  exact hqk

/-- products with the part of `C` which is not stored -/
theorem drop_mul {m : Nat} {D : Matrix (Fin m) (Fin m) K} (hD : ∀ i j, |D i j| ≤ z) (x : Fin m → K) (i : Fin m) :
    |(Dᵀ *ᵥ x) i| ≤ z * ∑ j, |x j| := by
  show |∑ j, D j i * x j| ≤ _
  refine (Finset.abs_sum_le_sum_abs _ _).trans ?_
  rw [Finset.mul_sum]
  refine Finset.sum_le_sum fun j _ => ?_
  rw [abs_mul]
  exact mul_le_mul_of_nonneg_right (hD j i) (abs_nonneg _)

theorem drop_quad {m : Nat} {D : Matrix (Fin m) (Fin m) K} (hD : ∀ i j, |D i j| ≤ z) (x : Fin m → K) :
    |x ⬝ᵥ (Dᵀ *ᵥ x)| ≤ z * (∑ j, |x j|) ^ 2 := by
  show |∑ i, x i * (Dᵀ *ᵥ x) i| ≤ _
  refine (Finset.abs_sum_le_sum_abs _ _).trans ?_
  have : z * (∑ j, |x j|) ^ 2 = ∑ i, |x i| * (z * ∑ j, |x j|) := by
    rw [← Finset.sum_mul]; ring
  rw [this]
  refine Finset.sum_le_sum fun i _ => ?_
  rw [abs_mul]
  exact mul_le_mul_of_nonneg_left (drop_mul hD x i) (abs_nonneg _)

/-- C64: the tested complementarity value approximates the complementarity violation at the returned point. -/
theorem C64_phi (F : RoundsZ α K u t z) (h : SolvedS e fuel o n a o1 o') :
    ∃ x v, o'.s.xk = some x ∧ x.length = n.nV ∧ getPhi o'.d o'.s = .ok v ∧ (v <. o.d.opts.complTol) = true ∧
      ∀ w, F.val v = some w → |w - (F.probS n a).phi (F.vec n.nV x)| ≤
        ((1 + u) ^ (2 * n.nV + 2 * n.nComp + 6) - 1) * (F.probS n a).magPhi t (F.vec n.nV x) +
          z / 2 * (∑ j, |F.vec n.nV x j|) ^ 2 := by
  obtain ⟨D, off, hz, hD, _, ho, s, w, w', v, m, rho, st, x, y, hs, hq, hoff, h1, h2, h3, h4, h5, h6, h7, h8, h9, h10, h11,
    h12, h13, h14, h15, h16, h17, h18⟩ := h.last F
  have lx : x.length = n.nV := by
    obtain ⟨x', h', l⟩ := hs.xk
    rw [h8] at h'
    injection h' with h'
    rw [h']; exact l
  refine ⟨x, v, h9, lx, h1, by rw [← ho]; exact h2, fun w hw => ?_⟩
  have e1 := (getPhi_apxS hD h9 lx h1).2 w hw
  have e2 := drop_quad hz (F.vec n.nV x)
  have e3 : |w - (F.probS n a).phi (F.vec n.nV x)| ≤
      |w - ((F.probS n a).phi (F.vec n.nV x) - F.vec n.nV x ⬝ᵥ (Dᵀ *ᵥ F.vec n.nV x) / 2)| +
        |F.vec n.nV x ⬝ᵥ (Dᵀ *ᵥ F.vec n.nV x) / 2| := by
    rw [show w - (F.probS n a).phi (F.vec n.nV x) =
      (w - ((F.probS n a).phi (F.vec n.nV x) - F.vec n.nV x ⬝ᵥ (Dᵀ *ᵥ F.vec n.nV x) / 2)) -
        F.vec n.nV x ⬝ᵥ (Dᵀ *ᵥ F.vec n.nV x) / 2 by ring]
    exact abs_sub _ _
  rw [abs_div, abs_of_pos (show (0 : K) < 2 by norm_num)] at e3
  have e4 : |F.vec n.nV x ⬝ᵥ (Dᵀ *ᵥ F.vec n.nV x)| / 2 ≤ z / 2 * (∑ j, |F.vec n.nV x j|) ^ 2 := by
    rw [div_mul_eq_mul_div]
    exact div_le_div_of_nonneg_right e2 (by norm_num)
  linarith

/-- C64: at the returned point the complementarity violation is below its tolerance, up to rounding errors and dropped
entries, if the value computed for it is finite. -/
theorem C64_complementary (F : RoundsZ α K u t z) (h : SolvedS e fuel o n a o1 o') {tc : K}
    (htc : F.val o.d.opts.complTol = some tc) (hfin : ∀ v, getPhi o'.d o'.s = .ok v → F.IsFin v) :
    ∃ x, o'.s.xk = some x ∧ x.length = n.nV ∧ (F.probS n a).phi (F.vec n.nV x) <
      tc + ((1 + u) ^ (2 * n.nV + 2 * n.nComp + 6) - 1) * (F.probS n a).magPhi t (F.vec n.nV x) +
        z / 2 * (∑ j, |F.vec n.nV x j|) ^ 2 := by
  obtain ⟨x, v, hx, lx, hv, hlt, hb⟩ := C64_phi F h
  refine ⟨x, hx, lx, ?_⟩
  obtain ⟨w, hw⟩ := Option.ne_none_iff_exists'.mp (hfin v hv)
  rw [F.lt _ _ _ _ hw htc] at hlt
  have h1 : w < tc := of_decide_eq_true hlt
  have h2 := abs_le.mp (hb w hw)
  linarith

/-- the stationarity test and the returned multipliers, together -/
theorem SolvedS.stat (F : RoundsZ α K u t z) (h : SolvedS e fuel o n a o1 o') {ts φ : K}
    (hts : F.val o.d.opts.statTol = some ts) (hf : F.val o.d.opts.factor = some φ) (h0 : φ ≠ 0)
    (hfin : ∀ st, o'.s.statk = some st → ∀ c ∈ st, F.IsFin c) :
    ∃ (off k : Nat) (x yA yr : List α) (y : Fin (off + n.nA) → K) (b : Bool), (off = n.nV ∨ off = 0) ∧
      o'.s.outer = some (k : Int) ∧ o'.s.rho = some (penalty o.d.opts k) ∧ o'.s.xk = some x ∧ x.length = n.nV ∧
      o'.s.ykA = some yA ∧ yA.length = n.nA ∧ o'.s.yk = some yr ∧ yr.length = off + n.nA ∧
      yLin y = F.vec n.nA yA ∧ yBox y = yBox (F.vec (off + n.nA) yr) ∧ (b = false → k = 0 ∨ (F.probS n a).gPhi = 0) ∧
      (k = 0 → b = false) ∧
      (∀ i, |((F.probS n a).flip.penResidual (F.v (penalty o.d.opts k)) (F.vec n.nV x) y -
          if b then 0 else F.v (penalty o.d.opts k) • (F.probS n a).gPhi) i| <
        ts + ((1 + u) ^ (k + n.nV + n.nC + 2 * n.nComp + 12) - 1) *
          (F.probS n a).flip.magStatS t φ (fun l => F.v (penalty o.d.opts l)) k (F.vec n.nV x) y i +
          |F.v (penalty o.d.opts k)| * (z * ∑ j, |F.vec n.nV x j|)) ∧
      ((∀ c ∈ yr, F.IsFin c) → ∀ i, |(F.probS n a).flip.residual (F.vec n.nV x) (F.vec (off + n.nA) yr) i -
        ((F.probS n a).flip.penResidual (F.v (penalty o.d.opts k)) (F.vec n.nV x) y -
          F.v (penalty o.d.opts k) • (F.probS n a).gPhi) i| ≤
        ((1 + u) ^ (n.nV + 3) - 1) * (F.probS n a).flip.magDual t (F.v (penalty o.d.opts k)) (F.vec n.nV x) y i) := by
  obtain ⟨D, off, hz, hD, hbox, ho, s, w, w', v, m, rho, st, x, y, hs, hq, hoff, h1, h2, h3, h4, h5, h6, h7, h8, h9, h10, h11,
    h12, h13, h14, h15, h16, h17, h18⟩ := h.last F
  have lx : x.length = n.nV := by
    obtain ⟨x', h', l⟩ := hs.xk
    rw [h8] at h'
    injection h' with h'
    rw [h']; exact l
  obtain ⟨y', hy', ly, hya⟩ := hs.y
  rw [h14] at hy'
  injection hy' with hy'
  subst hy'
  obtain ⟨k, b, hk, hr, hb1, hb2, st', hst', lst, ast⟩ := stat_apxS hD hs hq hbox (by rw [ho]; exact hf) h0 h8 h14 h6
  rw [h7] at hst'
  injection hst' with hst'
  subst hst'
  rw [ho] at hr ast
  rw [h10] at hr
  injection hr with hr
  subst hr
  obtain ⟨yr, hyr, lyr, heq, ayr⟩ := duals_apxS hD hoff h17 h16 lx h15 ly h18
  have hk0 : s.outer = some 0 ↔ k = 0 := by
    rw [hk]
    constructor
    · intro h; injection h with h; exact_mod_cast h
    · rintro rfl; rfl
  refine ⟨off, k, x, _, yr, F.vec (off + n.nA) y, b, ?_, by rw [← h12, hk], h11, h9, lx, by rw [← h13]; exact hya, by simp, hyr,
    lyr, ?_, ?_, fun h => (hb1 h).imp hk0.mp id, fun h => hb2 (hk0.mpr h), ?_, ?_⟩
  · rcases hbox with h | h
    · exact Or.inl h.1
    · exact Or.inr h.1
  · ext i
    show F.v (gt y (off + i)) = F.v (gt (tab n.nA fun i => gt y (off + i)) i)
    rw [gt_tab _ i.2]
  · ext i
    unfold yBox
    split
    · show F.v (gt y i) = F.v (gt yr i)
      rw [heq i (by have := i.2; omega)]
    · rfl
  · have hval : ∀ i < n.nV, F.val (gt st i) = some (F.v (gt st i)) := by
      intro i hi
      have : gt st i ∈ st := gt_mem (by omega)
      obtain ⟨c, hc⟩ := Option.ne_none_iff_exists'.mp (hfin st h3 _ this)
      rw [hc, Rounds.v, hc]; rfl
    obtain ⟨q, hq', hqb⟩ := maxAbs_apx F.toRounds (by omega) _ hval h4
    rw [ho, F.lt _ _ _ _ hq' hts] at h5
    have h5 : q < ts := of_decide_eq_true h5
    intro i
    have e1 := (ast i).2 _ (hval i i.2)
    have e2 := hqb i i.2
    have e3 := drop_mul hz (F.vec n.nV x) i
    have e4 := mul_le_mul_of_nonneg_left e3 (abs_nonneg (F.v (penalty o.d.opts k)))
    rw [← abs_mul] at e4
    have e5 : |((F.probS n a).flip.penResidual (F.v (penalty o.d.opts k)) (F.vec n.nV x) (F.vec (off + n.nA) y) -
          if b then 0 else F.v (penalty o.d.opts k) • (F.probS n a).gPhi) i| ≤
        |F.v (gt st i) - ((F.probS n a).flip.penResidual (F.v (penalty o.d.opts k)) (F.vec n.nV x) (F.vec (off + n.nA) y) -
          F.v (penalty o.d.opts k) • (Dᵀ *ᵥ F.vec n.nV x) - if b then 0 else F.v (penalty o.d.opts k) • (F.probS n a).gPhi) i| +
        |F.v (gt st i)| + |F.v (penalty o.d.opts k) * (Dᵀ *ᵥ F.vec n.nV x) i| := by
      have : ((F.probS n a).flip.penResidual (F.v (penalty o.d.opts k)) (F.vec n.nV x) (F.vec (off + n.nA) y) -
          if b then 0 else F.v (penalty o.d.opts k) • (F.probS n a).gPhi) i =
        F.v (gt st i) - (F.v (gt st i) - ((F.probS n a).flip.penResidual (F.v (penalty o.d.opts k)) (F.vec n.nV x)
          (F.vec (off + n.nA) y) - F.v (penalty o.d.opts k) • (Dᵀ *ᵥ F.vec n.nV x) -
            if b then 0 else F.v (penalty o.d.opts k) • (F.probS n a).gPhi) i) +
          F.v (penalty o.d.opts k) * (Dᵀ *ᵥ F.vec n.nV x) i := by
        simp only [Pi.sub_apply, Pi.smul_apply, smul_eq_mul]
        ring
      rw [this]
      refine (abs_add_le _ _).trans (add_le_add ((abs_sub _ _).trans (le_of_eq (add_comm _ _))) (le_refl _))
    linarith
  · intro hfi i
    have hg : (F.probS n a).flip.gPhi = (F.probS n a).gPhi := rfl
    rw [← hg]
    apply residual_apx
    · ext j
      unfold yBox
      split
      · show F.v (gt yr j) = F.v (gt y j)
        rw [heq j (by have := j.2; omega)]
      · rfl
    · ext j
      show F.v (gt yr (off + j)) = F.v (gt y (off + j))
      rw [heq _ (by have := j.2; omega)]
    · intro j
      have hj : j.1 < yr.length := by rw [lyr]; exact j.2
      have hm : gt yr j ∈ yr := gt_mem hj
      obtain ⟨c, hc⟩ := Option.ne_none_iff_exists'.mp (hfi _ hm)
      have : F.vec (off + n.nA) yr j = c := by
        show F.v (gt yr j) = c
        rw [Rounds.v, hc]; rfl
      rw [this]
      exact (ayr j).2 c hc

/-- C64: at the returned point, if a penalty update has been made or the lower complementarity bounds have no linear part,
the gradient of the penalised Lagrangian is below the stationarity tolerance, up to rounding errors and dropped entries, if
all entries of the stationarity vector are finite.  Here `k` is the number of penalty updates. -/
theorem C64_certified (F : RoundsZ α K u t z) (h : SolvedS e fuel o n a o1 o') {ts φ : K}
    (hts : F.val o.d.opts.statTol = some ts) (hf : F.val o.d.opts.factor = some φ) (h0 : φ ≠ 0)
    (hfin : ∀ st, o'.s.statk = some st → ∀ c ∈ st, F.IsFin c)
    (hc : o'.s.outer ≠ some 0 ∨ (F.probS n a).gPhi = 0) :
    ∃ (off k : Nat) (x yA yr : List α) (y : Fin (off + n.nA) → K), (off = n.nV ∨ off = 0) ∧
      o'.s.outer = some (k : Int) ∧ o'.s.rho = some (penalty o.d.opts k) ∧ o'.s.xk = some x ∧ x.length = n.nV ∧
      o'.s.ykA = some yA ∧ yA.length = n.nA ∧ o'.s.yk = some yr ∧ yr.length = off + n.nA ∧
      yLin y = F.vec n.nA yA ∧ yBox y = yBox (F.vec (off + n.nA) yr) ∧
      ∀ i, |(F.probS n a).flip.penResidual (F.v (penalty o.d.opts k)) (F.vec n.nV x) y i| <
        ts + ((1 + u) ^ (k + n.nV + n.nC + 2 * n.nComp + 12) - 1) *
          (F.probS n a).flip.magStatS t φ (fun l => F.v (penalty o.d.opts l)) k (F.vec n.nV x) y i +
          |F.v (penalty o.d.opts k)| * (z * ∑ j, |F.vec n.nV x j|) := by
  obtain ⟨off, k, x, yA, yr, y, b, q0, q1, q2, q3, q4, q5, q6, q7, q8, q9, q10, hb1, hb2, h10, _⟩ := h.stat F hts hf h0 hfin
  refine ⟨off, k, x, yA, yr, y, q0, q1, q2, q3, q4, q5, q6, q7, q8, q9, q10, fun i => ?_⟩
  have hz : (if b then 0 else F.v (penalty o.d.opts k) • (F.probS n a).gPhi) = 0 := by
    cases b
    · rcases hc with hc | hc
      · rcases hb1 rfl with h | h
        · subst h; exact absurd q1 hc
        · simp [h]
      · simp [hc]
    · simp
  have := h10 i
  rwa [hz, sub_zero] at this

/-- C64: the returned point and the returned multipliers satisfy the stationarity condition of the problem up to the
tolerance, rounding errors and dropped entries, if the lower complementarity bounds have no linear part or if no penalty
update has been made, and if all numbers involved are finite. -/
theorem C64_stationary (F : RoundsZ α K u t z) (h : SolvedS e fuel o n a o1 o') {ts φ : K}
    (hts : F.val o.d.opts.statTol = some ts) (hf : F.val o.d.opts.factor = some φ) (h0 : φ ≠ 0)
    (hfin : ∀ st, o'.s.statk = some st → ∀ c ∈ st, F.IsFin c)
    (hfin' : ∀ yr, o'.s.yk = some yr → ∀ c ∈ yr, F.IsFin c)
    (hc : (F.probS n a).gPhi = 0 ∨ o'.s.outer = some 0) :
    ∃ (off k : Nat) (x yA yr : List α) (y : Fin (off + n.nA) → K), (off = n.nV ∨ off = 0) ∧
      o'.s.outer = some (k : Int) ∧ o'.s.rho = some (penalty o.d.opts k) ∧ o'.s.xk = some x ∧ x.length = n.nV ∧
      o'.s.ykA = some yA ∧ yA.length = n.nA ∧ o'.s.yk = some yr ∧ yr.length = off + n.nA ∧
      yLin y = F.vec n.nA yA ∧ yBox y = yBox (F.vec (off + n.nA) yr) ∧
      ∀ i, |(F.probS n a).flip.residual (F.vec n.nV x) (F.vec (off + n.nA) yr) i| <
        ts + ((1 + u) ^ (k + n.nV + n.nC + 2 * n.nComp + 12) - 1) *
          (F.probS n a).flip.magStatS t φ (fun l => F.v (penalty o.d.opts l)) k (F.vec n.nV x) y i +
          |F.v (penalty o.d.opts k)| * (z * ∑ j, |F.vec n.nV x j|) +
        ((1 + u) ^ (n.nV + 3) - 1) * (F.probS n a).flip.magDual t (F.v (penalty o.d.opts k)) (F.vec n.nV x) y i := by
  obtain ⟨off, k, x, yA, yr, y, b, q0, q1, q2, q3, q4, q5, q6, q7, q8, q9, q10, hb1, hb2, h10, h11⟩ :=
    h.stat F hts hf h0 hfin
  refine ⟨off, k, x, yA, yr, y, q0, q1, q2, q3, q4, q5, q6, q7, q8, q9, q10, fun i => ?_⟩
  have hz : (if b then 0 else F.v (penalty o.d.opts k) • (F.probS n a).gPhi) = F.v (penalty o.d.opts k) • (F.probS n a).gPhi := by
    rcases hc with hc | hc
    · simp [hc]
    · have : k = 0 := by rw [q1] at hc; injection hc with hc; exact_mod_cast hc
      simp [hb2 this]
  have e1 := h10 i
  rw [hz] at e1
  have e2 := h11 (hfin' yr q7) i
  have e3 := abs_sub_abs_le_abs_sub ((F.probS n a).flip.residual (F.vec n.nV x) (F.vec (off + n.nA) yr) i)
    (((F.probS n a).flip.penResidual (F.v (penalty o.d.opts k)) (F.vec n.nV x) y -
      F.v (penalty o.d.opts k) • (F.probS n a).gPhi) i)
  linarith

/-- C64: in general the residual of the returned multipliers is off by `rho * g_phi` once the penalty has been updated. -/
theorem C64_error (F : RoundsZ α K u t z) (h : SolvedS e fuel o n a o1 o') {ts φ : K}
    (hts : F.val o.d.opts.statTol = some ts) (hf : F.val o.d.opts.factor = some φ) (h0 : φ ≠ 0)
    (hfin : ∀ st, o'.s.statk = some st → ∀ c ∈ st, F.IsFin c)
    (hfin' : ∀ yr, o'.s.yk = some yr → ∀ c ∈ yr, F.IsFin c) (hc : o'.s.outer ≠ some 0) :
    ∃ (off k : Nat) (x yA yr : List α) (y : Fin (off + n.nA) → K), (off = n.nV ∨ off = 0) ∧
      o'.s.outer = some (k : Int) ∧ o'.s.rho = some (penalty o.d.opts k) ∧ o'.s.xk = some x ∧ x.length = n.nV ∧
      o'.s.ykA = some yA ∧ yA.length = n.nA ∧ o'.s.yk = some yr ∧ yr.length = off + n.nA ∧
      yLin y = F.vec n.nA yA ∧ yBox y = yBox (F.vec (off + n.nA) yr) ∧
      ∀ i, |((F.probS n a).flip.residual (F.vec n.nV x) (F.vec (off + n.nA) yr) +
          F.v (penalty o.d.opts k) • (F.probS n a).gPhi) i| <
        ts + ((1 + u) ^ (k + n.nV + n.nC + 2 * n.nComp + 12) - 1) *
          (F.probS n a).flip.magStatS t φ (fun l => F.v (penalty o.d.opts l)) k (F.vec n.nV x) y i +
          |F.v (penalty o.d.opts k)| * (z * ∑ j, |F.vec n.nV x j|) +
        ((1 + u) ^ (n.nV + 3) - 1) * (F.probS n a).flip.magDual t (F.v (penalty o.d.opts k)) (F.vec n.nV x) y i := by
  obtain ⟨off, k, x, yA, yr, y, b, q0, q1, q2, q3, q4, q5, q6, q7, q8, q9, q10, hb1, hb2, h10, h11⟩ :=
    h.stat F hts hf h0 hfin
  refine ⟨off, k, x, yA, yr, y, q0, q1, q2, q3, q4, q5, q6, q7, q8, q9, q10, fun i => ?_⟩
  have hz : (if b then 0 else F.v (penalty o.d.opts k) • (F.probS n a).gPhi) = 0 := by
    cases b
    · rcases hb1 rfl with h | h
      · subst h; exact absurd q1 hc
      · simp [h]
    · simp
  have e1 := h10 i
  rw [hz, sub_zero] at e1
  have e2 := h11 (hfin' yr q7) i
  have e3 := abs_sub_abs_le_abs_sub (((F.probS n a).flip.residual (F.vec n.nV x) (F.vec (off + n.nA) yr) +
    F.v (penalty o.d.opts k) • (F.probS n a).gPhi) i)
    ((F.probS n a).flip.penResidual (F.v (penalty o.d.opts k)) (F.vec n.nV x) y i)
  have e4 : ((F.probS n a).flip.residual (F.vec n.nV x) (F.vec (off + n.nA) yr) + F.v (penalty o.d.opts k) • (F.probS n a).gPhi) i -
      (F.probS n a).flip.penResidual (F.v (penalty o.d.opts k)) (F.vec n.nV x) y i =
      (F.probS n a).flip.residual (F.vec n.nV x) (F.vec (off + n.nA) yr) i -
      ((F.probS n a).flip.penResidual (F.v (penalty o.d.opts k)) (F.vec n.nV x) y -
        F.v (penalty o.d.opts k) • (F.probS n a).gPhi) i := by
    simp only [Pi.add_apply, Pi.sub_apply]
    ring
  rw [e4] at e3
  linarith

/-- C64: for a symmetric Hessian the statements are about the problem itself. -/
theorem C64_symmetric {P : Prob K n} (h : P.Qᵀ = P.Q) : P.flip = P := by
  unfold Prob.flip
  rw [h]

/-! ## IEEE doubles -/

namespace Dbl

/-- `double` satisfies the standard model, and numbers taken for zero are below `10^-25` up to one rounding. -/
def roundsZ : RoundsZ Dbl ℚ (pow2 (-53)) (pow2 (-1022)) ((1 + 1 / 2 ^ 53) / 10 ^ 25) where
  toRoundsDiv := roundsDiv
  z0 := by norm_num
  small b h := by
    have hz : ∃ q, val (zeroTol : Dbl) = some q ∧ q ≤ (1 + 1 / 2 ^ 53) / 10 ^ 25 := by
      have h1 : (match val (zeroTol : Dbl) with
        | some q => decide (q ≤ (1 + 1 / 2 ^ 53) / 10 ^ 25)
        | none => false) = true := by decide +kernel
      split at h1
      case h_1 q hq => exact ⟨q, hq, of_decide_eq_true h1⟩
      case h_2 => cases h1
    obtain ⟨q, hq, hle⟩ := hz
    unfold isZero getAbs at h
    generalize (zeroTol : Dbl) = zt at hq h
    change Dbl.le (Dbl.abs b) zt = true at h
    cases zt <;> simp only [val, reduceCtorEq] at hq
    case num w _ _ =>
      injection hq with hq
      subst hq
      cases b <;> simp only [Dbl.abs, Dbl.le, reduceCtorEq] at h
      case num x _ _ =>
        exact ⟨x, rfl, (of_decide_eq_true h).trans hle⟩

end Dbl

/-- C64: IEEE doubles satisfy the standard model of floating point arithmetic, and a double taken for zero is at most
`10^-25`, up to the rounding error of this constant. -/
theorem C64_binary64 : ∃ F : RoundsZ Dbl ℚ (1 / 2 ^ 53) (1 / 2 ^ 1022) ((1 + 1 / 2 ^ 53) / 10 ^ 25), F.val = Dbl.val := by
  have h1 : Dbl.pow2 (-53) = 1 / 2 ^ 53 := by decide +kernel
  have h2 : Dbl.pow2 (-1022) = 1 / 2 ^ 1022 := by decide +kernel
  have h3 : ∃ F : RoundsZ Dbl ℚ (Dbl.pow2 (-53)) (Dbl.pow2 (-1022)) ((1 + 1 / 2 ^ 53) / 10 ^ 25), F.val = Dbl.val :=
    ⟨Dbl.roundsZ, rfl⟩
  rwa [h1, h2] at h3

namespace ExS
open Dbl

/-- options: `1` is the sparse version of qpOASES, `2` is OSQP -/
def opts (q : Int) : Options Dbl := { Options.default 0 0 with
  perturb := false
  qpSolver := q }

/-- constructed object -/
def obj0 (q : Int) : Obj Dbl := Obj.new (opts q) 2 0 1

/-- diagonal matrix -/
def diag (v w : Dbl) : CSC Dbl := ⟨2, 2, 2, [0, 1, 2], [0, 1], [v, w]⟩

/-- one row, the first entry -/
def row0 (v : Dbl) : CSC Dbl := ⟨1, 2, 1, [0, 1, 1], [0], [v]⟩

/-- one row, the second entry -/
def row1 (v : Dbl) : CSC Dbl := ⟨1, 2, 1, [0, 0, 1], [0], [v]⟩

/-- the problem of `ExD.args` -/
def args : SparseArgs Dbl where
  Q := some (diag (lit 2 1) (lit 2 1))
  g := some [lit (-2) 1, lit (-2) 1]
  L := some (row0 (lit 1 1))
  R := some (row1 (lit 7 1))

/-- the same problem with lower complementarity bounds -/
def args2 : SparseArgs Dbl := { args with
  lbL := some [lit 1 1]
  lbR := some [lit 3 1] }

/-- the QP solver of `ExD.env` for OSQP, which has no multipliers of box constraints -/
def env0 : Env Dbl := ExD.envOf fun _ => ExD.answer [one, zero] [zero, lit 28471428571428571 17]

theorem is_of {S : CSC Dbl} {m p : Nat} (h1 : S.m = m) (h2 : S.n = p) (h3 : S.p.length = p + 1) (h4 : S.p.getD 0 0 = 0)
    (h5 : ∀ j < p, S.p.getD j 0 ≤ S.p.getD (j + 1) 0) (h6 : S.P p ≤ S.nzmax) (h7 : S.nzmax ≤ S.i.length)
    (h8 : S.nzmax ≤ S.x.length) (h9 : ∀ k < S.P p, 0 ≤ S.i.getD k 0 ∧ S.i.getD k 0 < (m : Int)) : S.Is m p := by
  subst h1 h2
  exact ⟨⟨⟨h3, h4, h5, h6, h7, h8⟩, h9⟩, rfl, rfl⟩

/-- at most one entry per column -/
theorem sorted_of {S : CSC Dbl} (h : ∀ j < S.n, S.P (j + 1) ≤ S.P j + 1) : S.Sorted := by
  intro j hj k l h1 h2 h3
  have := h j hj
  omega

theorem diag_is (v w : Dbl) : (diag v w).Is 2 2 :=
  is_of rfl rfl rfl rfl (show ∀ j < 2, [(0 : Int), 1, 2].getD j 0 ≤ [(0 : Int), 1, 2].getD (j + 1) 0 by decide) (le_refl 2)
    (le_refl 2) (le_refl 2) (show ∀ k < 2, 0 ≤ [(0 : Int), 1].getD k 0 ∧ [(0 : Int), 1].getD k 0 < 2 by decide)

theorem row0_is (v : Dbl) : (row0 v).Is 1 2 :=
  is_of rfl rfl rfl rfl (show ∀ j < 2, [(0 : Int), 1, 1].getD j 0 ≤ [(0 : Int), 1, 1].getD (j + 1) 0 by decide) (le_refl 1)
    (le_refl 1) (le_refl 1) (show ∀ k < 1, 0 ≤ [(0 : Int)].getD k 0 ∧ [(0 : Int)].getD k 0 < 1 by decide)

theorem row1_is (v : Dbl) : (row1 v).Is 1 2 :=
  is_of rfl rfl rfl rfl (show ∀ j < 2, [(0 : Int), 0, 1].getD j 0 ≤ [(0 : Int), 0, 1].getD (j + 1) 0 by decide) (le_refl 1)
    (le_refl 1) (le_refl 1) (show ∀ k < 1, 0 ≤ [(0 : Int)].getD k 0 ∧ [(0 : Int)].getD k 0 < 1 by decide)

theorem diag_sorted (v w : Dbl) : (diag v w).Sorted :=
  sorted_of (show ∀ j < 2, ([(0 : Int), 1, 2].getD (j + 1) 0).toNat ≤ ([(0 : Int), 1, 2].getD j 0).toNat + 1 by decide)

theorem row0_sorted (v : Dbl) : (row0 v).Sorted :=
  sorted_of (show ∀ j < 2, ([(0 : Int), 1, 1].getD (j + 1) 0).toNat ≤ ([(0 : Int), 1, 1].getD j 0).toNat + 1 by decide)

theorem row1_sorted (v : Dbl) : (row1 v).Sorted :=
  sorted_of (show ∀ j < 2, ([(0 : Int), 0, 1].getD (j + 1) 0).toNat ≤ ([(0 : Int), 0, 1].getD j 0).toNat + 1 by decide)

/-- the run is successful and all numbers are finite -/
def fine (env : Env Dbl) (o : Obj Dbl) (a : SparseArgs Dbl) (x : List (Option ℚ)) (w : List (Option ℚ)) (k : Int) : Bool :=
  match loadSparse env o a with
  | .ok (.successfulReturn, o1) =>
    match runSolver env 10 o1 with
    | .ok (some (.successfulReturn, o')) =>
      (match getPhi o'.d o'.s with
        | .ok v => (val v).isSome
        | _ => false) &&
      (match o'.s.statk with
        | some st => (st.all fun c => (val c).isSome) && decide (st.map val = w)
        | none => false) &&
      (match o'.s.yk with
        | some y => y.all fun c => (val c).isSome
        | none => false) &&
      (match o'.s.xk with
        | some v => decide (v.map val = x)
        | none => false) && decide (o'.s.outer = some k)
    | _ => false
  | _ => false

theorem of_fine {env : Env Dbl} {o : Obj Dbl} {n : Dims} {a : SparseArgs Dbl} {x w : List (Option ℚ)} {k : Int} (hb : Built o n)
    (hi : o.s.idxC = []) (hl : LowUnset o) (hf : a.Fits n) (hs : a.Sorted)
    (hp : a.lbL = none ↔ a.lbR = none) (h : fine env o a x w k = true) : ∃ o1 o', SolvedS env 10 o n a o1 o' ∧
    (∀ v, getPhi o'.d o'.s = .ok v → roundsZ.IsFin v) ∧ (∀ st, o'.s.statk = some st → ∀ c ∈ st, roundsZ.IsFin c) ∧
    (∀ yr, o'.s.yk = some yr → ∀ c ∈ yr, roundsZ.IsFin c) ∧ o'.s.outer = some k ∧
    o'.s.statk.map (·.map val) = some w ∧ o'.s.xk.map (·.map val) = some x := by
  unfold fine at h
  split at h
  case h_2 => cases h
  case h_1 o1 hld =>
    split at h
    case h_2 => cases h
    case h_1 o' hr =>
      simp only [Bool.and_eq_true, decide_eq_true_eq] at h
      obtain ⟨⟨⟨⟨h1, h2⟩, h3⟩, h5⟩, h4⟩ := h
      have fin : ∀ c : Dbl, (val c).isSome = true → roundsZ.IsFin c := by
        intro c hc hn
        change val c = none at hn
        rw [hn] at hc; cases hc
      refine ⟨o1, o', ⟨hb, hi, hl, hf, hs, hp, hld, hr⟩, ?_, ?_, ?_, h4, ?_, ?_⟩
      · intro v hv
        rw [hv] at h1
        exact fin v h1
      · intro st hst c hc
        rw [hst] at h2
        simp only [Bool.and_eq_true, List.all_eq_true] at h2
        exact fin c (h2.1 c hc)
      · intro y hy c hc
        rw [hy] at h3
        simp only [List.all_eq_true] at h3
        exact fin c (h3 c hc)
      · cases hst : o'.s.statk with
        | none => rw [hst] at h2; cases h2
        | some st =>
          rw [hst] at h2
          simp only [Bool.and_eq_true, decide_eq_true_eq] at h2
          simp [h2.2]
      · cases hst : o'.s.xk with
        | none => rw [hst] at h5; cases h5
        | some st =>
          rw [hst] at h5
          simp only [decide_eq_true_eq] at h5
          simp [h5]

/-- identity of size three -/
def id3 : CSC Dbl := ⟨3, 3, 3, [0, 1, 2, 3], [0, 1, 2], [one, one, one]⟩

/-- `(10^-13, 0, 1)` -/
def rowL : CSC Dbl := ⟨1, 3, 2, [0, 1, 1, 2], [0, 0], [lit 1 13, one]⟩

/-- `(0, 10^-13, 0)` -/
def rowR : CSC Dbl := ⟨1, 3, 1, [0, 0, 1, 1], [0], [lit 1 13]⟩

/-- a problem with large numbers: minimise `1/2*|x|^2 - 10^20*(x1 + x2)` where `x3 >= 0` and `10^-13*x1 + x3` is
complementary to `10^-13*x2` -/
def argsT : SparseArgs Dbl where
  Q := some id3
  g := some [lit (-10 ^ 20) 0, lit (-10 ^ 20) 0, zero]
  L := some rowL
  R := some rowR
  lb := some [-. inf, -. inf, zero]

/-- the QP is answered by `(10^20, 10^20, 0)`, the box constraint of `x3` being active -/
def envT : Env Dbl := ExD.envOf fun _ => ExD.answer [lit (10 ^ 20) 0, lit (10 ^ 20) 0, zero] [zero, zero, lit 100000 0, zero, zero]

theorem id3_is : id3.Is 3 3 :=
  is_of rfl rfl rfl rfl (show ∀ j < 3, [(0 : Int), 1, 2, 3].getD j 0 ≤ [(0 : Int), 1, 2, 3].getD (j + 1) 0 by decide) (le_refl 3)
    (le_refl 3) (le_refl 3) (show ∀ k < 3, 0 ≤ [(0 : Int), 1, 2].getD k 0 ∧ [(0 : Int), 1, 2].getD k 0 < 3 by decide)

theorem rowL_is : rowL.Is 1 3 :=
  is_of rfl rfl rfl rfl (show ∀ j < 3, [(0 : Int), 1, 1, 2].getD j 0 ≤ [(0 : Int), 1, 1, 2].getD (j + 1) 0 by decide) (le_refl 2)
    (le_refl 2) (le_refl 2) (show ∀ k < 2, 0 ≤ [(0 : Int), 0].getD k 0 ∧ [(0 : Int), 0].getD k 0 < 1 by decide)

theorem rowR_is : rowR.Is 1 3 :=
  is_of rfl rfl rfl rfl (show ∀ j < 3, [(0 : Int), 0, 1, 1].getD j 0 ≤ [(0 : Int), 0, 1, 1].getD (j + 1) 0 by decide) (le_refl 1)
    (le_refl 1) (le_refl 1) (show ∀ k < 1, 0 ≤ [(0 : Int)].getD k 0 ∧ [(0 : Int)].getD k 0 < 1 by decide)

theorem id3_sorted : id3.Sorted :=
  sorted_of (show ∀ j < 3, ([(0 : Int), 1, 2, 3].getD (j + 1) 0).toNat ≤ ([(0 : Int), 1, 2, 3].getD j 0).toNat + 1 by decide)

theorem rowL_sorted : rowL.Sorted :=
  sorted_of (show ∀ j < 3, ([(0 : Int), 1, 1, 2].getD (j + 1) 0).toNat ≤ ([(0 : Int), 1, 1, 2].getD j 0).toNat + 1 by decide)

theorem rowR_sorted : rowR.Sorted :=
  sorted_of (show ∀ j < 3, ([(0 : Int), 0, 1, 1].getD (j + 1) 0).toNat ≤ ([(0 : Int), 0, 1, 1].getD j 0).toNat + 1 by decide)

theorem args_fits : args.Fits ⟨2, 0, 1⟩ := by
  refine ⟨⟨_, rfl, diag_is _ _⟩, ⟨_, rfl, row0_is _⟩, ⟨_, rfl, row1_is _⟩, ?_, ?_, ?_, ?_, ?_, ?_, ?_, ?_, ?_, ?_, ?_, ?_⟩ <;>
    (rintro v ⟨⟩) <;> simp

theorem args2_fits : args2.Fits ⟨2, 0, 1⟩ := by
  refine ⟨⟨_, rfl, diag_is _ _⟩, ⟨_, rfl, row0_is _⟩, ⟨_, rfl, row1_is _⟩, ?_, ?_, ?_, ?_, ?_, ?_, ?_, ?_, ?_, ?_, ?_, ?_⟩ <;>
    (rintro v ⟨⟩) <;> simp

theorem argsT_fits : argsT.Fits ⟨3, 0, 1⟩ := by
  refine ⟨⟨_, rfl, id3_is⟩, ⟨_, rfl, rowL_is⟩, ⟨_, rfl, rowR_is⟩, ?_, ?_, ?_, ?_, ?_, ?_, ?_, ?_, ?_, ?_, ?_, ?_⟩ <;>
    (rintro v ⟨⟩) <;> simp

theorem args_sorted : args.Sorted := by
  refine ⟨?_, ?_, ?_, ?_⟩ <;> rintro S ⟨⟩
  · exact diag_sorted _ _
  · exact row0_sorted _
  · exact row1_sorted _

theorem args2_sorted : args2.Sorted := by
  refine ⟨?_, ?_, ?_, ?_⟩ <;> rintro S ⟨⟩
  · exact diag_sorted _ _
  · exact row0_sorted _
  · exact row1_sorted _

theorem argsT_sorted : argsT.Sorted := by
  refine ⟨?_, ?_, ?_, ?_⟩ <;> rintro S ⟨⟩
  · exact id3_sorted
  · exact rowL_sorted
  · exact rowR_sorted

/-- The hypotheses of the theorems of C64 are met by a run of the sparse version of qpOASES in which rounding errors occur. -/
theorem solved : ∃ o1 o', SolvedS ExD.env 10 (obj0 1) ⟨2, 0, 1⟩ args o1 o' ∧
    (∀ v, getPhi o'.d o'.s = .ok v → roundsZ.IsFin v) ∧ (∀ st, o'.s.statk = some st → ∀ c ∈ st, roundsZ.IsFin c) ∧
    (∀ yr, o'.s.yk = some yr → ∀ c ∈ yr, roundsZ.IsFin c) ∧ o'.s.outer = some 0 ∧
    o'.s.statk.map (·.map val) = some [some 0, some (-1 / 36028797018963968)] ∧
    o'.s.xk.map (·.map val) = some [some 1, some 0] :=
  of_fine (Built.new _ (by decide)) rfl (LowUnset.new _ (by decide)) args_fits args_sorted (by simp [args]) (by decide +kernel)

/-- The same with OSQP, where the multipliers have no part for the box constraints. -/
theorem solved0 : ∃ o1 o', SolvedS env0 10 (obj0 2) ⟨2, 0, 1⟩ args o1 o' ∧
    (∀ v, getPhi o'.d o'.s = .ok v → roundsZ.IsFin v) ∧ (∀ st, o'.s.statk = some st → ∀ c ∈ st, roundsZ.IsFin c) ∧
    (∀ yr, o'.s.yk = some yr → ∀ c ∈ yr, roundsZ.IsFin c) ∧ o'.s.outer = some 0 ∧
    o'.s.statk.map (·.map val) = some [some 0, some (-1 / 36028797018963968)] ∧
    o'.s.xk.map (·.map val) = some [some 1, some 0] :=
  of_fine (Built.new _ (by decide)) rfl (LowUnset.new _ (by decide)) args_fits args_sorted (by simp [args]) (by decide +kernel)

/-- The same with lower complementarity bounds and a penalty update. -/
theorem solved2 : ∃ o1 o', SolvedS ExD.env2 10 (obj0 1) ⟨2, 0, 1⟩ args2 o1 o' ∧
    (∀ v, getPhi o'.d o'.s = .ok v → roundsZ.IsFin v) ∧ (∀ st, o'.s.statk = some st → ∀ c ∈ st, roundsZ.IsFin c) ∧
    (∀ yr, o'.s.yk = some yr → ∀ c ∈ yr, roundsZ.IsFin c) ∧ o'.s.outer = some 1 ∧
    o'.s.statk.map (·.map val) = some [some (211 / 9223372036854775808), some 0] ∧
    o'.s.xk.map (·.map val) = some [some 1, some 1] :=
  of_fine (Built.new _ (by decide)) rfl (LowUnset.new _ (by decide)) args2_fits args2_sorted (by simp [args2])
    (by decide +kernel)

theorem solvedT : ∃ o1 o', SolvedS envT 10 (Obj.new (opts 1) 3 0 1) ⟨3, 0, 1⟩ argsT o1 o' ∧
    (∀ v, getPhi o'.d o'.s = .ok v → roundsZ.IsFin v) ∧ (∀ st, o'.s.statk = some st → ∀ c ∈ st, roundsZ.IsFin c) ∧
    (∀ yr, o'.s.yk = some yr → ∀ c ∈ yr, roundsZ.IsFin c) ∧ o'.s.outer = some 0 ∧
    o'.s.statk.map (·.map val) = some [some 0, some 0, some (1 / 68719476736)] ∧
    o'.s.xk.map (·.map val) = some [some (10 ^ 20), some (10 ^ 20), some 0] :=
  of_fine (Built.new _ (by decide)) rfl (LowUnset.new _ (by decide)) argsT_fits argsT_sorted (by simp [argsT])
    (by decide +kernel)

theorem phiT : (10 ^ 13 : ℚ) ≤ (roundsZ.probS ⟨3, 0, 1⟩ argsT).phi ![10 ^ 20, 10 ^ 20, 0] := by decide +kernel

end ExS

/-- C64: the term for the dropped entries is needed.  With the default tolerances a run with IEEE doubles reports success
at a point whose complementarity violation is larger than `10^13`, since the product `10^-26` of two entries was taken for
zero. -/
theorem C64_dropped : ∃ (o1 o' : Obj Dbl) (x : List Dbl),
    SolvedS ExS.envT 10 (Obj.new (ExS.opts 1) 3 0 1) ⟨3, 0, 1⟩ ExS.argsT o1 o' ∧ o'.s.xk = some x ∧
    10 ^ 13 ≤ (Dbl.roundsZ.probS ⟨3, 0, 1⟩ ExS.argsT).phi (Dbl.roundsZ.vec 3 x) := by
  obtain ⟨o1, o', h, _, _, _, _, _, hx⟩ := ExS.solvedT
  cases hxk : o'.s.xk with
  | none => rw [hxk] at hx; cases hx
  | some x =>
    refine ⟨o1, o', x, h, hxk, ?_⟩
    rw [hxk] at hx
    injection hx with hx
    have hx : x.map Dbl.val = [some (10 ^ 20), some (10 ^ 20), some 0] := hx
    have e : Dbl.roundsZ.vec 3 x = ![10 ^ 20, 10 ^ 20, 0] := by
      have key : ∀ i, Dbl.roundsZ.v (gt x i) = ((x.map Dbl.val).getD i (some 0)).getD 0 := by
        intro i
        show (Dbl.val (x.getD i zero)).getD 0 = _
        rw [List.getD_eq_getElem?_getD, List.getD_eq_getElem?_getD, List.getElem?_map]
        cases x[i]? with
        | none =>
          show (Dbl.val zero).getD 0 = _
          rw [Dbl.val_zero]; rfl
        | some v => rfl
      ext i
      show Dbl.roundsZ.v (gt x i) = _
      rw [key, hx]
      match i with
      | 0 => rfl
      | 1 => rfl
      | 2 => rfl
    rw [e]
    exact ExS.phiT

/-- the theorems apply to the runs -/
example : ∃ o1 o' x, SolvedS ExD.env 10 (ExS.obj0 1) ⟨2, 0, 1⟩ ExS.args o1 o' ∧ o'.s.xk = some x ∧
    (Dbl.roundsZ.probS ⟨2, 0, 1⟩ ExS.args).phi (Dbl.roundsZ.vec 2 x) <
      Dbl.roundsZ.v (ExS.obj0 1).d.opts.complTol + ((1 + Dbl.pow2 (-53)) ^ 12 - 1) *
        (Dbl.roundsZ.probS ⟨2, 0, 1⟩ ExS.args).magPhi (Dbl.pow2 (-1022)) (Dbl.roundsZ.vec 2 x) +
        (1 + 1 / 2 ^ 53) / 10 ^ 25 / 2 * (∑ j, |Dbl.roundsZ.vec 2 x j|) ^ 2 := by
  obtain ⟨o1, o', h, h1, _⟩ := ExS.solved
  obtain ⟨x, hx, _, hb⟩ := C64_complementary Dbl.roundsZ h (tc := Dbl.roundsZ.v (ExS.obj0 1).d.opts.complTol)
    (by decide +kernel) h1
  exact ⟨o1, o', x, h, hx, hb⟩

example : ∃ o1 o' x yr, SolvedS ExS.env0 10 (ExS.obj0 2) ⟨2, 0, 1⟩ ExS.args o1 o' ∧ o'.s.xk = some x ∧ o'.s.yk = some yr := by
  obtain ⟨o1, o', h, _, h2, h3, h4, _⟩ := ExS.solved0
  obtain ⟨_, _, x, _, yr, _, _, _, _, hx, _, _, _, hr, _⟩ := C64_stationary Dbl.roundsZ h
    (ts := Dbl.roundsZ.v (ExS.obj0 2).d.opts.statTol) (φ := 2) (by decide +kernel) (by decide +kernel) (by norm_num) h2 h3 (Or.inr h4)
  exact ⟨o1, o', x, yr, h, hx, hr⟩

example : ∃ o1 o' x yr, SolvedS ExD.env2 10 (ExS.obj0 1) ⟨2, 0, 1⟩ ExS.args2 o1 o' ∧ o'.s.xk = some x ∧ o'.s.yk = some yr := by
  obtain ⟨o1, o', h, _, h2, h3, h4, _⟩ := ExS.solved2
  obtain ⟨_, _, x, _, yr, _, _, _, _, hx, _, _, _, hr, _⟩ := C64_error Dbl.roundsZ h
    (ts := Dbl.roundsZ.v (ExS.obj0 1).d.opts.statTol) (φ := 2) (by decide +kernel) (by decide +kernel) (by norm_num) h2 h3
    (by rw [h4]; decide)
  exact ⟨o1, o', x, yr, h, hx, hr⟩

end LCQ
