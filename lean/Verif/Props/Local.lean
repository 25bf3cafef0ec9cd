import Verif.Lemmas.Local
import Verif.Props.Classify

/-!
# C68: success means approximate local optimality
-/

set_option linter.unusedSectionVars false

namespace LCQ
open Scalar Ext
open scoped Matrix

variable {K : Type} [Field K] [LinearOrder K] [IsStrictOrderedRing K] {n : Dims} {P : Prob K n} {e : Env (Ext K)}
  {o : Obj (Ext K)} {x0 : Fin n.nV → K} {r0 f : K} {lA uA : Fin n.nA → Ext K} {l u : Fin n.nV → Ext K}

/-- the mixed products of the complementarity sides at two points; twice the complementarity violation if they are equal -/
def Prob.cross (P : Prob K n) (x y : Fin n.nV → K) : K :=
  (P.L *ᵥ x - P.lbL) ⬝ᵥ (P.R *ᵥ y - P.lbR) + (P.L *ᵥ y - P.lbL) ⬝ᵥ (P.R *ᵥ x - P.lbR)

/-- C68: at the point `x` returned by a successful run with exactly solved subproblems, the derivative of the penalty
function in the direction of any feasible point `y` is not below minus the stationarity tolerance times the distance of
`y` from `x` plus the length of the part of the last step that was not made, `(1 - a) p` for the final step `p` and step
length `a` (the perturbation of the steps, if enabled, adds a term of the order of `Utilities::EPS`). -/
theorem C68_vi (hS : Setup e o n P x0 r0 f) (hB : BoundsAre o n lA uA l u) (hE : ExactOn e n (IsSub P lA uA l u))
    (hQ : P.Qᵀ = P.Q) {ts tc : K} (hts : o.d.opts.statTol = fin ts) (htc : o.d.opts.complTol = fin tc) {fuel : Nat}
    {o' : Obj (Ext K)} (h : runSolver e fuel o = .ok (some (.successfulReturn, o')))
    (hc : o'.s.outer ≠ some 0 ∨ P.gPhi = 0) :
    ∃ (r : K) (x p : Fin n.nV → K) (a : K), o'.s.xk = some (ev x) ∧ o'.s.rho = some (fin r) ∧ o'.s.pk = some (ev p) ∧
      o'.s.alpha = some (fin a) ∧ 0 < a ∧ a ≤ 1 ∧ ∀ y, Feasible P lA uA l u y →
        -(ts * (l1 (y - x) + (1 - a) * l1 p)) - slack o * (l1 (P.gradObj x + r • P.gradPhi x) + n.nV * ts) ≤
          (P.gradObj x + r • P.gradPhi x) ⬝ᵥ (y - x) := by
  obtain ⟨s, hs, hp⟩ := run_last h
  obtain ⟨off, r, b, x, p, a, y, v, g, h0, hd, ho, hsp, hx, hb, hk, hv, ha0, ha1, hstep⟩ := head_last hS hB hE hs
  obtain ⟨_, h2, h3, h4, h5, h6, h7, _⟩ :=
    pass_success hd hx hb (by rw [ho]; exact hts) (by rw [ho]; exact htc) hp rfl
  have hg : (if b then 0 else r • P.gPhi) = 0 := by
    cases b
    · obtain ⟨k, hk, hk0, hkb⟩ := h3
      rcases hc with hc | hc
      · have : ¬ (0 < k) := fun h => by simpa using hkb.mpr h
        exact absurd (by rw [hk, le_antisymm (not_lt.mp this) hk0]) hc
      · simp [hc]
    · rfl
  have hgT : P.gT b r = P.g + r • P.gPhi := by
    cases b
    · simp only [Bool.false_eq_true, if_false] at hg
      simp [Prob.gT, hg]
    · simp [Prob.gT]
  have hQk : tr o'.d.sparse (P.Q + r • P.C) = P.Q + r • P.C := by
    cases o'.d.sparse
    · rfl
    · apply tr_symm
      rw [Matrix.transpose_add, Matrix.transpose_smul, hQ, P.C_symm]
  have hG : ∀ w, P.gradObj w + r • P.gradPhi w = (P.Q + r • P.C) *ᵥ w + (P.g + r • P.gPhi) := by
    intro w
    rw [P.gradPhi_eq, Prob.gradObj, Matrix.add_mulVec, Matrix.smul_mulVec, smul_add]
    abel
  have hpos : 0 ≤ ts := (abs_nonneg _).trans (h2 ⟨0, Nat.pos_of_ne_zero hS.ready.nV⟩).le
  obtain ⟨h8, h9⟩ := pass_success_step hd hx hp rfl
  refine ⟨r, x + a • p, p, a, h5, h4, h8, h9, ha0, ha1, fun w hw => ?_⟩
  refine vi_of hk (fun i => ?_) ha0.le ha1 hv ?_ ⟨hw.lA, hw.uA, hw.l, hw.u⟩ hpos
  · have := (h2 i).le
    rw [Prob.stat, hQk, hgT, ← hG] at this
    exact this
  · rcases hstep with h | h
    · exact Or.inl h
    · right
      rw [hQk, hgT] at h
      rw [hG, dotProduct_comm, Matrix.mulVec_add, Matrix.mulVec_smul, add_right_comm, dotProduct_add, dotProduct_smul,
        smul_eq_mul]
      exact h

theorem gradPhi_dot (x y : Fin n.nV → K) : P.gradPhi x ⬝ᵥ (y - x) = P.cross x y - 2 * P.phi x := by
  have h1 : P.gradPhi x ⬝ᵥ (y - x) = (P.L *ᵥ x - P.lbL) ⬝ᵥ (P.R *ᵥ (y - x)) + (P.R *ᵥ x - P.lbR) ⬝ᵥ (P.L *ᵥ (y - x)) := by
    rw [Prob.gradPhi, add_dotProduct, Matrix.mulVec_transpose, Matrix.mulVec_transpose, ← Matrix.dotProduct_mulVec,
      ← Matrix.dotProduct_mulVec]
  have e1 : P.R *ᵥ (y - x) = (P.R *ᵥ y - P.lbR) - (P.R *ᵥ x - P.lbR) := by rw [Matrix.mulVec_sub]; abel
  have e2 : P.L *ᵥ (y - x) = (P.L *ᵥ y - P.lbL) - (P.L *ᵥ x - P.lbL) := by rw [Matrix.mulVec_sub]; abel
  rw [h1, e1, e2, Prob.cross, Prob.phi]
  generalize P.R *ᵥ x - P.lbR = a
  generalize P.L *ᵥ x - P.lbL = b
  generalize P.R *ᵥ y - P.lbR = a'
  generalize P.L *ᵥ y - P.lbL = b'
  rw [dotProduct_sub, dotProduct_sub, dotProduct_comm a b, dotProduct_comm a]
  ring

/-- convexity of the objective -/
theorem obj_convex (hQ : P.Qᵀ = P.Q) (hpsd : ∀ v, 0 ≤ v ⬝ᵥ (P.Q *ᵥ v)) (x y : Fin n.nV → K) :
    P.obj x + P.gradObj x ⬝ᵥ (y - x) ≤ P.obj y := by
  have h2 := hpsd (y - x)
  have h3 : x ⬝ᵥ (P.Q *ᵥ y) = y ⬝ᵥ (P.Q *ᵥ x) := by
    rw [Matrix.dotProduct_mulVec, ← Matrix.mulVec_transpose, hQ, dotProduct_comm]
  simp only [Prob.gradObj, Prob.obj, add_dotProduct, dotProduct_sub, Matrix.mulVec_sub, sub_dotProduct] at h2 ⊢
  rw [dotProduct_comm (P.Q *ᵥ x) y, dotProduct_comm (P.Q *ᵥ x) x]
  linarith

/-- C68: for a convex objective and without perturbation, the point `x` returned by a successful run with exactly solved
subproblems is feasible and compares with every feasible point `y` as stated: its objective value is not larger up to the
tolerance and the mixed products of `x` and `y`, weighted with the penalty parameter. -/
theorem C68_compare (hS : Setup e o n P x0 r0 f) (hB : BoundsAre o n lA uA l u) (hE : ExactOn e n (IsSub P lA uA l u))
    (hQ : P.Qᵀ = P.Q) (hpsd : ∀ v, 0 ≤ v ⬝ᵥ (P.Q *ᵥ v)) (hper : o.d.opts.perturb = false) {ts tc : K}
    (hts : o.d.opts.statTol = fin ts) (htc : o.d.opts.complTol = fin tc) {fuel : Nat} {o' : Obj (Ext K)}
    (h : runSolver e fuel o = .ok (some (.successfulReturn, o'))) (hc : o'.s.outer ≠ some 0 ∨ P.gPhi = 0) :
    ∃ (r : K) (x p : Fin n.nV → K) (a : K), o'.s.xk = some (ev x) ∧ o'.s.rho = some (fin r) ∧ o'.s.pk = some (ev p) ∧
      o'.s.alpha = some (fin a) ∧ 0 < a ∧ a ≤ 1 ∧ Feasible P lA uA l u x ∧ P.phi x < tc ∧ ∀ y, Feasible P lA uA l u y →
        P.obj x + 2 * r * P.phi x ≤ P.obj y + r * P.cross x y + ts * (l1 (y - x) + (1 - a) * l1 p) := by
  obtain ⟨r, x, p, a, h1, h2, k1, k2, k3, k4, h4⟩ := C68_vi hS hB hE hQ hts htc h hc
  obtain ⟨x', h5, h6⟩ := C27_success hS hB hE.feas hper h
  obtain ⟨x'', h7, h8⟩ := C20_complementary hS hts htc h
  rw [h1] at h5 h7
  have e1 : x = x' := ev_inj (Option.some.inj h5)
  have e2 : x = x'' := ev_inj (Option.some.inj h7)
  subst e1 e2
  refine ⟨r, x, p, a, h1, h2, k1, k2, k3, k4, h6, h8, fun y hy => ?_⟩
  have h9 := h4 y hy
  rw [slack, hper] at h9
  simp only [Bool.false_eq_true, if_false, zero_mul, sub_zero] at h9
  rw [add_dotProduct, smul_dotProduct, gradPhi_dot, smul_eq_mul] at h9
  have h10 := obj_convex hQ hpsd x y
  have e3 : r * (P.cross x y - 2 * P.phi x) = r * P.cross x y - 2 * r * P.phi x := by ring
  rw [e3] at h9
  linarith

/-! ## in terms of the arguments of the load functions -/

/-- points satisfying all constraints of the program, complementarity included -/
structure Bnds.Solves (b : Bnds (Ext K)) (P : Prob K n) (x : Fin n.nV → K) : Prop where
  feas : b.Feas P x
  compl : ∀ i, (P.L *ᵥ x - P.lbL) i = 0 ∨ (P.R *ᵥ x - P.lbR) i = 0

theorem Stored.feasible {b : Bnds (Ext K)} (hs : Stored o n b) (hB : BoundsAre o n lA uA l u) {x : Fin n.nV → K}
    (h : b.Feas P x) : Feasible P lA uA l u x := by
  have hA : n.nA = n.nC + 2 * n.nComp := rfl
  have e1 := hs.lbA.symm.trans hB.lbA
  have e2 := hs.ubA.symm.trans hB.ubA
  injection e1 with e1
  injection e2 with e2
  have e3 := hs.lb.symm.trans hB.lb
  have e4 := hs.ub.symm.trans hB.ub
  obtain ⟨l1, l2, l3, l4, l5, l6⟩ := hs.lens
  have g1 := getD_app3 (c := orFill b.lbR n.nComp (fin 0)) (orFill_len (v := ninf) l1) (orFill_len (v := fin 0) l3)
  have g2 := getD_app3 (c := orFill b.ubR n.nComp pinf) (orFill_len (v := pinf) l2) (orFill_len (v := pinf) l4)
  rw [e1] at g1
  rw [e2] at g2
  have key : ∀ i : Fin n.nA, (lA i <=. fin ((P.AA *ᵥ x) i)) = true ∧ (fin ((P.AA *ᵥ x) i) <=. uA i) = true := by
    rintro ⟨i, hi⟩
    have hcase : i < n.nC ∨ (∃ j, j < n.nComp ∧ i = n.nC + j) ∨ ∃ j, j < n.nComp ∧ i = n.nC + n.nComp + j := by
      by_cases h1 : i < n.nC
      · exact Or.inl h1
      · by_cases h2 : i < n.nC + n.nComp
        · exact Or.inr (Or.inl ⟨i - n.nC, by omega, by omega⟩)
        · exact Or.inr (Or.inr ⟨i - (n.nC + n.nComp), by omega, by omega⟩)
    rcases hcase with h1 | ⟨j, hj, rfl⟩ | ⟨j, hj, rfl⟩
    · have := h.A ⟨i, h1⟩
      rw [← (g1 i).1 h1, ← (g2 i).1 h1, getD_ofFn lA ⟨i, hi⟩, getD_ofFn uA ⟨i, hi⟩, ← AA_A x h1 hi] at this
      exact this
    · have := h.L ⟨j, hj⟩
      rw [← (g1 j).2.1 hj, ← (g2 j).2.1 hj, getD_ofFn lA ⟨_, hi⟩, getD_ofFn uA ⟨_, hi⟩, ← AA_L x hj hi] at this
      exact this
    · have := h.R ⟨j, hj⟩
      rw [← (g1 j).2.2, ← (g2 j).2.2, getD_ofFn lA ⟨_, hi⟩, getD_ofFn uA ⟨_, hi⟩, ← AA_R x hj hi] at this
      exact this
  refine ⟨fun i => (key i).1, fun i => (key i).2, fun i => ?_, fun i => ?_⟩
  · have := (h.box i).1
    rw [e3, getD_ofFn] at this
    exact this
  · have := (h.box i).2
    rw [e4, getD_ofFn] at this
    exact this

/-- the complementarity sides are not negative at feasible points -/
theorem sides_nonneg {b : Bnds (Ext K)} {x : Fin n.nV → K} (h : b.Feas P x) (hlow : ArgLow b.lbL b.lbR n.nComp P.lbL P.lbR)
    (i : Fin n.nComp) : 0 ≤ (P.L *ᵥ x - P.lbL) i ∧ 0 ≤ (P.R *ᵥ x - P.lbR) i :=
  let k := C27_products h hlow (lt_add_one (P.phi x)) i
  ⟨k.1, k.2.1⟩

/-- two complementary points whose positive sides do not clash have vanishing mixed products -/
theorem cross_zero {x y : Fin n.nV → K}
    (h : ∀ i, ((P.L *ᵥ x - P.lbL) i = 0 ∨ (P.R *ᵥ y - P.lbR) i = 0) ∧ ((P.R *ᵥ x - P.lbR) i = 0 ∨ (P.L *ᵥ y - P.lbL) i = 0)) :
    P.cross x y = 0 := by
  rw [Prob.cross, dotProduct, dotProduct, Finset.sum_eq_zero, Finset.sum_eq_zero, add_zero]
  · intro i _
    rcases (h i).2 with h | h <;> simp only [h, mul_zero, zero_mul]
  · intro i _
    rcases (h i).1 with h | h <;> simp only [h, mul_zero, zero_mul]

/-- positive numbers have a positive lower bound -/
theorem exists_low {m : Nat} (v : Fin m → K) : ∃ t, 0 < t ∧ ∀ i, 0 < v i → t ≤ v i := by
  induction m with
  | zero => exact ⟨1, one_pos, fun i => i.elim0⟩
  | succ m ih =>
    obtain ⟨t, ht, h⟩ := ih fun i => v i.castSucc
    by_cases hl : 0 < v (Fin.last m)
    · refine ⟨min t (v (Fin.last m)), lt_min ht hl, fun i => ?_⟩
      refine Fin.lastCases (fun _ => min_le_right _ _) (fun j hj => (min_le_left _ _).trans (h j hj)) i
    · refine ⟨t, ht, fun i => ?_⟩
      refine Fin.lastCases (fun h => absurd h hl) (fun j hj => h j hj) i

/-- a linear map is continuous: positive components stay positive nearby -/
theorem stays_positive {m : Nat} (B : Matrix (Fin m) (Fin n.nV) K) (c : Fin m → K) (x : Fin n.nV → K) :
    ∃ t, 0 < t ∧ ∀ y : Fin n.nV → K, (∀ j, |y j - x j| < t) → ∀ i, 0 < (B *ᵥ x - c) i → 0 < (B *ᵥ y - c) i := by
  obtain ⟨t, ht, hlow⟩ := exists_low (B *ᵥ x - c)
  let S : K := ∑ i, l1 (B i)
  have hS : 0 ≤ S := Finset.sum_nonneg fun i _ => l1_nonneg _
  refine ⟨t / (S + 1), div_pos ht (by linarith), fun y hy i hi => ?_⟩
  have h1 := hlow i hi
  have h2 : |(y - x) ⬝ᵥ B i| ≤ t / (S + 1) * l1 (B i) := dot_le fun j => (hy j).le
  have h3 : l1 (B i) ≤ S := Finset.single_le_sum (f := fun i => l1 (B i)) (fun j _ => l1_nonneg _) (Finset.mem_univ i)
  have h4 : t / (S + 1) * l1 (B i) < t := by
    rw [div_mul_eq_mul_div, div_lt_iff₀ (by linarith)]
    exact mul_lt_mul_of_pos_left (by linarith) ht
  have h5 : (B *ᵥ y - c) i = (B *ᵥ x - c) i + (y - x) ⬝ᵥ B i := by
    simp only [Pi.sub_apply, Matrix.mulVec, sub_dotProduct, dotProduct_comm y, dotProduct_comm x]
    ring
  rw [h5]
  linarith [(abs_le.mp h2).1]

/-- What C68 says about the final object `o'`: the returned point `x` is feasible, and
* every point `y` satisfying the constraints whose sides do not clash with those of `x` (this includes all points of the
  branches of the complementarity constraints on which `x` lies) is at best better by the stationarity tolerance times the
  distance of `y` from `x` plus the length of the part of the last step that was not made;
* if `x` is exactly complementary, this is true for all points of the program in a neighbourhood of `x`. -/
def Bnds.LocalMin (b : Bnds (Ext K)) (P : Prob K n) (o' : Obj (Ext K)) (ts : K) : Prop :=
  ∃ (r : K) (x p : Fin n.nV → K) (a : K), o'.s.xk = some (ev x) ∧ o'.s.rho = some (fin r) ∧ o'.s.pk = some (ev p) ∧
    o'.s.alpha = some (fin a) ∧ 0 < a ∧ a ≤ 1 ∧ b.Feas P x ∧
    (∀ y, b.Feas P y → (∀ i, ((P.L *ᵥ x - P.lbL) i = 0 ∨ (P.R *ᵥ y - P.lbR) i = 0) ∧
        ((P.R *ᵥ x - P.lbR) i = 0 ∨ (P.L *ᵥ y - P.lbL) i = 0)) →
      P.obj x + 2 * r * P.phi x ≤ P.obj y + ts * (l1 (y - x) + (1 - a) * l1 p)) ∧
    (b.Solves P x → ∃ t, 0 < t ∧ ∀ y, b.Solves P y → (∀ j, |y j - x j| < t) →
      P.obj x ≤ P.obj y + ts * (l1 (y - x) + (1 - a) * l1 p))

theorem local_of {b : Bnds (Ext K)} (hst : Stored o n b) (hlow : ArgLow b.lbL b.lbR n.nComp P.lbL P.lbR)
    (hS : Setup e o n P x0 r0 f) (hB : BoundsAre o n lA uA l u) (hE : ExactOn e n (IsSub P lA uA l u))
    (hQ : P.Qᵀ = P.Q) (hpsd : ∀ v, 0 ≤ v ⬝ᵥ (P.Q *ᵥ v)) (hper : o.d.opts.perturb = false) {ts tc : K}
    (hts : o.d.opts.statTol = fin ts) (htc : o.d.opts.complTol = fin tc) {fuel : Nat} {o' : Obj (Ext K)}
    (h : runSolver e fuel o = .ok (some (.successfulReturn, o'))) (hc : o'.s.outer ≠ some 0 ∨ P.gPhi = 0) :
    b.LocalMin P o' ts := by
  obtain ⟨r, x, p, a, h1, h2, k1, k2, k3, k4, h3, _, h5⟩ := C68_compare hS hB hE hQ hpsd hper hts htc h hc
  have key : ∀ y, b.Feas P y → (∀ i, ((P.L *ᵥ x - P.lbL) i = 0 ∨ (P.R *ᵥ y - P.lbR) i = 0) ∧
        ((P.R *ᵥ x - P.lbR) i = 0 ∨ (P.L *ᵥ y - P.lbL) i = 0)) →
      P.obj x + 2 * r * P.phi x ≤ P.obj y + ts * (l1 (y - x) + (1 - a) * l1 p) := by
    intro y hy hcr
    have := h5 y (hst.feasible hB hy)
    rw [cross_zero hcr] at this
    linarith
  refine ⟨r, x, p, a, h1, h2, k1, k2, k3, k4, hst.feas hB h3, key, fun hx => ?_⟩
  obtain ⟨t1, p1, q1⟩ := stays_positive P.L P.lbL x
  obtain ⟨t2, p2, q2⟩ := stays_positive P.R P.lbR x
  refine ⟨min t1 t2, lt_min p1 p2, fun y hy hnear => ?_⟩
  have hphi : P.phi x = 0 := by
    rw [Prob.phi, dotProduct]
    refine Finset.sum_eq_zero fun i _ => ?_
    rcases hx.compl i with h | h <;> simp only [h, mul_zero, zero_mul]
  have := key y hy.feas fun i => by
    have n1 := sides_nonneg hx.feas hlow i
    constructor
    · rcases n1.1.eq_or_lt with h | h
      · exact Or.inl h.symm
      · have := q1 y (fun j => lt_of_lt_of_le (hnear j) (min_le_left _ _)) i h
        exact Or.inr ((hy.compl i).resolve_left this.ne')
    · rcases n1.2.eq_or_lt with h | h
      · exact Or.inl h.symm
      · have := q2 y (fun j => lt_of_lt_of_le (hnear j) (min_le_right _ _)) i h
        exact Or.inr ((hy.compl i).resolve_right this.ne')
  rw [hphi, mul_zero, add_zero] at this
  exact this

/-- C68: dense load into a new object and a successful run with exactly solved subproblems, convex objective and no
perturbation: the returned point is, up to the stationarity tolerance, optimal on its branches of the complementarity
constraints, and a local minimum if it is exactly complementary. -/
theorem C68_dense {a : DenseArgs (Ext K)} {o1 o2 : Obj (Ext K)} (hb : Built o n) (hn : NoLow o) (hl : o.d.lbTmp = none)
    (hu : o.d.ubTmp = none) (ha : a.Are n P x0) (h : loadDense e o a = .ok (.successfulReturn, o1))
    (hr : o.d.opts.rho0 = fin r0) (hf : o.d.opts.factor = fin f) (f0 : f ≠ 0) (he : FinAns e)
    (hE : ∀ lA uA l u, BoundsAre o1 n lA uA l u → ExactOn e n (IsSub P lA uA l u)) (hQ : P.Qᵀ = P.Q)
    (hpsd : ∀ v, 0 ≤ v ⬝ᵥ (P.Q *ᵥ v)) (hper : o.d.opts.perturb = false) {ts tc : K} (hts : o.d.opts.statTol = fin ts)
    (htc : o.d.opts.complTol = fin tc) {fuel : Nat} (hrun : runSolver e fuel o1 = .ok (some (.successfulReturn, o2)))
    (hc : o2.s.outer ≠ some 0 ∨ P.gPhi = 0) : a.bnds.LocalMin P o2 ts := by
  obtain ⟨hS, _⟩ := Setup.dense hb hn ha h hr hf f0 he
  obtain ⟨lA, uA, l, u, hB⟩ := boundsAre_ex hS.ready
  have ho : o1.d.opts = o.d.opts := (hb.load ha.fits (argLow_pair ha.low) h).2.1
  exact local_of (Stored.dense hb hl hu ha.fits h) ha.low hS hB (hE _ _ _ _ hB) hQ hpsd (by rw [ho]; exact hper)
    (by rw [ho]; exact hts) (by rw [ho]; exact htc) hrun hc

/-- C68: the same for a sparse load. -/
theorem C68_sparse {a : SparseArgs (Ext K)} {o1 o2 : Obj (Ext K)} (hb : Built o n) (hi : o.s.idxC = []) (hn : NoLow o)
    (hl : o.d.lbTmp = none) (hu : o.d.ubTmp = none) (ha : a.Are n P x0) (h : loadSparse e o a = .ok (.successfulReturn, o1))
    (hr : o.d.opts.rho0 = fin r0) (hf : o.d.opts.factor = fin f) (f0 : f ≠ 0) (he : FinAns e)
    (hE : ∀ lA uA l u, BoundsAre o1 n lA uA l u → ExactOn e n (IsSub P lA uA l u)) (hQ : P.Qᵀ = P.Q)
    (hpsd : ∀ v, 0 ≤ v ⬝ᵥ (P.Q *ᵥ v)) (hper : o.d.opts.perturb = false) {ts tc : K} (hts : o.d.opts.statTol = fin ts)
    (htc : o.d.opts.complTol = fin tc) {fuel : Nat} (hrun : runSolver e fuel o1 = .ok (some (.successfulReturn, o2)))
    (hc : o2.s.outer ≠ some 0 ∨ P.gPhi = 0) : a.bnds.LocalMin P o2 ts := by
  obtain ⟨hS, _⟩ := Setup.sparse hb hi hn ha h hr hf f0 he
  obtain ⟨lA, uA, l, u, hB⟩ := boundsAre_ex hS.ready
  have ho : o1.d.opts = o.d.opts := (hb.loadSparse hi ha.fits (argLow_pair ha.low) h).2.1
  exact local_of (Stored.sparse hb hl hu ha.fits h) ha.low hS hB (hE _ _ _ _ hB) hQ hpsd (by rw [ho]; exact hper)
    (by rw [ho]; exact hts) (by rw [ho]; exact htc) hrun hc

/-- C68: the returned multipliers of the left sides are not below `-rho` times the value of the right side (and vice
versa) if these sides have no upper bounds: at a pair with both sides zero they are not negative. -/
theorem C68_signs (hS : Setup e o n P x0 r0 f) (hB : BoundsAre o n lA uA l u) (hE : ExactOn e n (IsSub P lA uA l u))
    (hL : ∀ i : Fin n.nA, n.nC ≤ i.1 → uA i = pinf) {ts tc : K} (hts : o.d.opts.statTol = fin ts)
    (htc : o.d.opts.complTol = fin tc) {fuel : Nat} {o' : Obj (Ext K)}
    (h : runSolver e fuel o = .ok (some (.successfulReturn, o'))) :
    ∃ (off : Nat) (r : K) (x : Fin n.nV → K) (y : Fin (off + n.nA) → K), o'.d.boxOff = some off ∧ o'.s.xk = some (ev x) ∧
      o'.s.rho = some (fin r) ∧ o'.s.yk = some (ev y) ∧
      ∀ i, -(r * (P.R *ᵥ x) i) ≤ yL (yLin y) i ∧ -(r * (P.L *ᵥ x) i) ≤ yR (yLin y) i := by
  obtain ⟨s, hs, hp⟩ := run_last h
  obtain ⟨off, r, b, x, p, a, y, v, g, h0, hd, ho, hsp, hx, hb, hk, _⟩ := head_last hS hB hE hs
  obtain ⟨_, h2, h3, h4, h5, h6, h7, _⟩ :=
    pass_success hd hx hb (by rw [ho]; exact hts) (by rw [ho]; exact htc) hp rfl
  refine ⟨off, r, _, _, h0.boxOff, h5, h4, h7, fun i => ?_⟩
  have hz : ∀ j : Fin n.nA, n.nC ≤ j.1 → 0 ≤ yLin y j := by
    intro j hj
    by_contra hn
    have := hk.zneg j (not_le.mp hn)
    rw [show (P.subQp lA uA l u g).uA j = uA j from rfl, hL j hj] at this
    cases this
  rw [shifted_L, shifted_R]
  have h8 := hz ⟨n.nC + i, by have := i.2; simp only [Dims.nA]; omega⟩ (by simp)
  have h9 := hz ⟨n.nC + n.nComp + i, by have := i.2; simp only [Dims.nA]; omega⟩ (by simp [Nat.add_assoc])
  simp only [yL, yR, Pi.sub_apply, Pi.smul_apply, smul_eq_mul]
  constructor <;> linarith

namespace Ex

/-- `min (x-2)² + (y-1)²` subject to `0 ≤ x ⟂ y ≥ 0` -/
abbrev prob5L := prob [2, 0, 0, 2] [-4, -2] [0] [0]

/-- its arguments, with an initial guess -/
def args5L := argsOf [2, 0, 0, 2] [-4, -2] [0] [0] none none (some (emb [0, 1]))

/-- options of this example -/
def opts5L : Options (Ext ℚ) := { opts with
  rho0 := fin 4000
  complTol := fin (1 / 1000)
  zeroFirst := false }

theorem look5L : look (go (solver ans4) opts5L args5L 20) = some ⟨.successfulReturn, some 2, some 0, some (fin 4000),
    some (emb [0, 1]), some (emb [3996, 0]), some (emb [0, 0, -4, 0])⟩ := by decide +kernel

theorem load5L : (loadDense (solver ans4) (Obj.new opts5L 2 0 1) args5L).map (·.1) = .ok .successfulReturn := by rfl

/-- the run of this example -/
theorem wit5L : ∃ o o', Setup (solver ans4) o dim prob5L ![0, 1] 4000 2 ∧ o.d.opts = opts5L ∧ Stored o dim args5L.bnds ∧
    BoundsAre o dim ![fin 0, fin 0] (fun _ => pinf) (fun _ => ninf) (fun _ => pinf) ∧
    runSolver (solver ans4) 20 o = .ok (some (.successfulReturn, o')) ∧ o'.s.xk = some (ev ![0, 1]) := by
  obtain ⟨o, hl, hS, hsp, ho, hst⟩ := setup_of (v := ![0, 1]) (argsOf_are (Q := [2, 0, 0, 2]) (g := [-4, -2]) (lbL := [0])
    (lbR := [0]) (lb := none) (ub := none) (x0 := some (emb [0, 1])) rfl rfl rfl rfl (by rintro v ⟨⟩) (by rintro v ⟨⟩)
    (Or.inr ⟨[0, 1], rfl, by decide, by decide +kernel⟩))
    (solver_fin ans4) (op := opts5L) (r0 := 4000) (f := 2) (by decide +kernel) (by decide +kernel) (by decide) load5L
  obtain ⟨o', hr, h1, h2, h3, h4, h5, h6⟩ := look_inv hl look5L
  refine ⟨o, o', hS, ho, hst, ⟨?_, ?_, ?_, ?_⟩, hr, ?_⟩
  · rw [hst.lbA]; decide +kernel
  · rw [hst.ubA]; decide +kernel
  · rw [hst.lb]; decide +kernel
  · rw [hst.ub]; decide +kernel
  · rw [h4]; decide +kernel

end Ex

/-- C68: the minimum is only local, also with exactly solved subproblems: there is a successful run for
`min (x-2)² + (y-1)²`, `0 ≤ x ⟂ y ≥ 0` that returns the exactly complementary point `(0, 1)`, which is a local minimum
(up to the tolerance), while `(2, 0)` has a smaller objective value.  (This run also shows that the assumptions of
`C68_dense` can be satisfied.) -/
theorem C68_not_global : ∃ (e : Env (Ext ℚ)) (o o' : Obj (Ext ℚ)) (P : Prob ℚ ⟨2, 0, 1⟩) (b : Bnds (Ext ℚ)) (fuel : Nat) (ts : ℚ)
    (x y : Fin 2 → ℚ), (∃ x0 r0 f, Setup e o ⟨2, 0, 1⟩ P x0 r0 f) ∧ Stored o ⟨2, 0, 1⟩ b ∧
    (∃ lA uA l u, BoundsAre o ⟨2, 0, 1⟩ lA uA l u ∧ ExactOn e ⟨2, 0, 1⟩ (IsSub P lA uA l u)) ∧
    runSolver e fuel o = .ok (some (.successfulReturn, o')) ∧ b.LocalMin P o' ts ∧ o.d.opts.statTol = fin ts ∧
    o'.s.xk = some (ev x) ∧ b.Solves P x ∧ b.Solves P y ∧ P.obj y < P.obj x - 1 := by
  obtain ⟨o, o', hS, ho, hst, hB, hr, hx⟩ := Ex.wit5L
  have hE : ExactOn (Ex.solver Ex.ans4) Ex.dim (IsSub Ex.prob5L ![fin 0, fin 0] (fun _ => pinf) (fun _ => ninf) (fun _ => pinf)) :=
    Ex.exact4
  have hts : o.d.opts.statTol = fin (2221 / 10000000000000) := by rw [ho]; decide +kernel
  have hlow : ArgLow Ex.args5L.bnds.lbL Ex.args5L.bnds.lbR 1 Ex.prob5L.lbL Ex.prob5L.lbR :=
    Or.inr ⟨⟨[0], rfl, by decide, rfl⟩, ⟨[0], rfl, by decide, rfl⟩⟩
  refine ⟨_, o, o', Ex.prob5L, Ex.args5L.bnds, 20, _, ![0, 1], ![2, 0], ⟨_, _, _, hS⟩, hst, ⟨_, _, _, _, hB, hE⟩, hr, ?_, hts, hx, ?_, ?_, ?_⟩
  · refine local_of hst hlow hS hB hE (Ex.prob_psd (by decide)).1 (Ex.prob_psd (by decide)).2 (by rw [ho]; rfl) hts
      (tc := 1 / 1000) (by rw [ho]; decide +kernel) hr (Or.inr ?_)
    decide +kernel
  · refine ⟨⟨?_, ?_, ?_, ?_⟩, ?_⟩ <;> (try unfold Within) <;> decide +kernel
  · refine ⟨⟨?_, ?_, ?_, ?_⟩, ?_⟩ <;> (try unfold Within) <;> decide +kernel
  · decide +kernel

end LCQ
