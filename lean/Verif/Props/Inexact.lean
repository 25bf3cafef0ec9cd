import Verif.Lemmas.Inexact
import Verif.Props.Guess

/-!
# C86: runs with a QP solver that is not exact
-/

set_option linter.unusedSectionVars false

namespace LCQ
open Scalar Ext
open scoped Matrix

variable {K : Type} [Field K] [LinearOrder K] [IsStrictOrderedRing K] {n : Dims} {P : Prob K n} {e : Env (Ext K)}
  {o : Obj (Ext K)} {x0 : Fin n.nV → K} {r0 f : K} {d : Data (Ext K)} {lA uA : Fin n.nA → Ext K} {l u : Fin n.nV → Ext K} {ε : K}

/-- `v` lies between the optional bounds up to `t`, missing ones being replaced by the given defaults -/
def WithinTo (lo hi : Option (List (Ext K))) (dl du : Ext K) {m : Nat} (t v : Fin m → K) : Prop :=
  ∀ i : Fin m, ((orFill lo m dl).getD i nan <=. fin (v i + t i)) = true ∧ (fin (v i - t i) <=. (orFill hi m du).getD i nan) = true

/-- all constraints except complementarity hold up to `ε` and `δ` times the sum of the absolute values of the coefficients -/
structure Bnds.FeasTo (b : Bnds (Ext K)) (P : Prob K n) (ε δ : K) (x : Fin n.nV → K) : Prop where
  A : WithinTo b.lbA b.ubA ninf pinf (fun i => ε + δ * l1 (P.A i)) (P.A *ᵥ x)
  L : WithinTo b.lbL b.ubL (fin 0) pinf (fun i => ε + δ * l1 (P.L i)) (P.L *ᵥ x)
  R : WithinTo b.lbR b.ubR (fin 0) pinf (fun i => ε + δ * l1 (P.R i)) (P.R *ᵥ x)
  box : WithinTo b.lb b.ub ninf pinf (fun _ => ε + δ) x

/-- successful QP calls for subproblems of `P` with bounds `b` return solutions with finite multipliers that are exact up to
`ε` in the sense of `Qp.Near` -/
def SolvesTo (e : Env (Ext K)) (n : Dims) (P : Prob K n) (b : Bnds (Ext K)) (ε : K) : Prop :=
  FinAns e ∧ AnsOn e n (IsSub P (b.rowLo n) (b.rowHi n) (b.boxLo n) (b.boxHi n)) fun p => p.Near ε

theorem SolvesExactly.to {b : Bnds (Ext K)} (h : SolvesExactly e n P b) : SolvesTo e n P b 0 := by
  refine ⟨h.1, fun k q p h1 h2 h3 => ?_⟩
  obtain ⟨x, z, w, h4, h5⟩ := h.2 k q p h1 h2 h3
  exact ⟨x, z, w, h4, h5.near⟩

/-- the object after the load -/
theorem Loads.setup {o1 : Obj (Ext K)} {b : Bnds (Ext K)} (h : Loads e o o1 n P x0 b) (ho : Fresh o n) (he : FinAns e)
    (hr : o.d.opts.rho0 = fin r0) (hf : o.d.opts.factor = fin f) (f0 : f ≠ 0) :
    Setup e o1 n P x0 r0 f ∧ Stored o1 n b ∧ o1.d.opts = o.d.opts ∧
      BoundsAre o1 n (b.rowLo n) (b.rowHi n) (b.boxLo n) (b.boxHi n) := by
  rcases h with ⟨c, hc, rfl, h⟩ | ⟨c, hc, rfl, h⟩
  · have hs := Stored.dense ho.built ho.lb ho.ub hc.fits h
    exact ⟨(Setup.dense ho.built ho.low hc h hr hf f0 he).1, hs, (ho.built.load hc.fits (argLow_pair hc.low) h).2.1,
      hs.bounds hc.fits.lb hc.fits.ub⟩
  · have hs := Stored.sparse ho.built ho.lb ho.ub hc.fits h
    exact ⟨(Setup.sparse ho.built ho.idxC ho.low hc h hr hf f0 he).1, hs,
      (ho.built.loadSparse ho.idxC hc.fits (argLow_pair hc.low) h).2.1, hs.bounds hc.fits.lb hc.fits.ub⟩

theorem l1_neg {m : Nat} (v : Fin m → K) : l1 (-v) = l1 v := by
  rw [l1, l1]
  exact Finset.sum_congr rfl fun i _ => by rw [Pi.neg_apply, abs_neg]

/-- one constraint: what holds for all answers up to `ε` holds for the point left by a run -/
theorem row_to {t x' : Fin n.nV → K} {δ : K} {lo hi : Ext K} (hB : BoundsAre o n lA uA l u) (hS : Setup e o n P x0 r0 f)
    {s0 : St (Ext K)} (h0 : Enters e o d s0)
    (hrow : ∀ (c : Fin n.nV → K) (β : K), (∀ k q p, q.Is n p → IsSub P lA uA l u p → QpOk q.sub (e.qp k q) → ∀ x : Fin n.nV → K,
        (∀ i, (e.qp k q).x i.1 = fin (x i)) → c ⬝ᵥ x ≤ β) → c ⬝ᵥ x' ≤ β + δ * l1 c)
    (hF : ∀ k q p, q.Is n p → IsSub P lA uA l u p → QpOk q.sub (e.qp k q) → ∀ x : Fin n.nV → K,
      (∀ i, (e.qp k q).x i.1 = fin (x i)) → (lo <=. fin (t ⬝ᵥ x + ε)) = true ∧ (fin (t ⬝ᵥ x - ε) <=. hi) = true) :
    (lo <=. fin (t ⬝ᵥ x' + (ε + δ * l1 t))) = true ∧ (fin (t ⬝ᵥ x' - (ε + δ * l1 t)) <=. hi) = true := by
  obtain ⟨q, w, hq, _, hok, hw, _⟩ := C48_first hS hB h0
  obtain ⟨f1, f2⟩ := hF _ _ _ hq ⟨_, rfl⟩ hok w hw
  constructor
  · cases lo with
    | fin c =>
      have := hrow (-t) (-c + ε) (fun k q p h1 h2 h3 x hx => by
        have := (hF k q p h1 h2 h3 x hx).1
        have : c ≤ t ⬝ᵥ x + ε := by simpa using this
        rw [neg_dotProduct]
        linarith)
      rw [neg_dotProduct, l1_neg] at this
      have : c ≤ t ⬝ᵥ x' + (ε + δ * l1 t) := by linarith
      simpa using this
    | pinf => cases f1
    | ninf => rfl
    | nan => cases f1
  · cases hi with
    | fin c =>
      have := hrow t (c + ε) (fun k q p h1 h2 h3 x hx => by
        have := (hF k q p h1 h2 h3 x hx).2
        have : t ⬝ᵥ x - ε ≤ c := by simpa using this
        linarith)
      have : t ⬝ᵥ x' - (ε + δ * l1 t) ≤ c := by linarith
      simpa using this
    | pinf => rfl
    | ninf => cases f2
    | nan => cases f2

/-- C86: the point left by a run of a new object, with whatever return code, violates no linear constraint, side constraint or
bound by more than the QP solver does, and the perturbation of the steps if that is enabled, if the first subproblem was
solved.  The errors do not add up. -/
theorem C86_rows {o1 : Obj (Ext K)} {b : Bnds (Ext K)} (hl : Loads e o o1 n P x0 b) (ho : Fresh o n) (he : SolvesTo e n P b ε)
    (hr : o.d.opts.rho0 = fin r0) (hf : o.d.opts.factor = fin f) (f0 : f ≠ 0) {fuel : Nat} {rv : RV} {o2 : Obj (Ext K)}
    (h : runSolver e fuel o1 = .ok (some (rv, o2))) {s0 : St (Ext K)} (h0 : Enters e o1 d s0) :
    ∃ (k : Nat) (x : Fin n.nV → K), o2.s.stats.iterTotal = k + 1 ∧ (k : Int) ≤ max 0 o.d.opts.maxIter ∧ o2.s.xk = some (ev x) ∧
      b.FeasTo P ε (k * slack o) x := by
  obtain ⟨hS, hst, hop, hB⟩ := hl.setup ho he.1 hr hf f0
  obtain ⟨k, x, h1, h2, h3, h4⟩ := run_row hS hB h h0
  refine ⟨k, x, h1, by rw [← hop]; exact h2, h3, ?_⟩
  have hsl : slack o1 = slack o := by rw [slack, slack, hop]
  have hrow : ∀ (c : Fin n.nV → K) (β : K), (∀ k q p, q.Is n p → IsSub P (b.rowLo n) (b.rowHi n) (b.boxLo n) (b.boxHi n) p →
      QpOk q.sub (e.qp k q) → ∀ x : Fin n.nV → K, (∀ i, (e.qp k q).x i.1 = fin (x i)) → c ⬝ᵥ x ≤ β) →
      c ⬝ᵥ x ≤ β + (k * slack o) * l1 c := by
    intro c β hc
    have := h4 c β hc
    rw [hsl] at this
    rw [mul_assoc]
    exact this
  have ans : ∀ k q p, q.Is n p → IsSub P (b.rowLo n) (b.rowHi n) (b.boxLo n) (b.boxHi n) p → QpOk q.sub (e.qp k q) →
      ∀ x : Fin n.nV → K, (∀ i, (e.qp k q).x i.1 = fin (x i)) → ∃ z w, p.Near ε x z w := by
    intro k q p h1 h2 h3 x hx
    obtain ⟨x', z, w, ⟨hx', _⟩, hk⟩ := he.2 k q p h1 h2 h3
    have : x' = x := by
      ext i
      have := (hx' i).symm.trans (hx i)
      injection this
    exact ⟨z, w, this ▸ hk⟩
  have key : ∀ i : Fin n.nA, (b.rowLo n i <=. fin (P.AA i ⬝ᵥ x + (ε + k * slack o * l1 (P.AA i)))) = true ∧
      (fin (P.AA i ⬝ᵥ x - (ε + k * slack o * l1 (P.AA i))) <=. b.rowHi n i) = true := by
    intro i
    refine row_to hB hS h0 hrow fun k q p h1 h2 h3 x hx => ?_
    obtain ⟨z, w, hk⟩ := ans k q p h1 h2 h3 x hx
    obtain ⟨g, rfl⟩ := h2
    exact ⟨hk.lA i, hk.uA i⟩
  have hA : n.nA = n.nC + 2 * n.nComp := rfl
  have e1 := hst.lbA.symm.trans hB.lbA
  have e2 := hst.ubA.symm.trans hB.ubA
  injection e1 with e1
  injection e2 with e2
  have e3 := hst.lb.symm.trans hB.lb
  have e4 := hst.ub.symm.trans hB.ub
  obtain ⟨l1', l2, l3, l4, l5, l6⟩ := hst.lens
  have g1 := getD_app3 (c := orFill b.lbR n.nComp (fin 0)) (orFill_len (v := ninf) l1') (orFill_len (v := fin 0) l3)
  have g2 := getD_app3 (c := orFill b.ubR n.nComp pinf) (orFill_len (v := pinf) l2) (orFill_len (v := pinf) l4)
  rw [e1] at g1
  rw [e2] at g2
  refine ⟨fun i => ?_, fun i => ?_, fun i => ?_, fun i => ?_⟩
  · have hi : i.1 < n.nA := by have := i.2; omega
    have hrw : P.AA ⟨i, hi⟩ = P.A i := by
      funext j
      simp only [Prob.AA, stackRows, dif_pos i.2]
    have := key ⟨i, hi⟩
    rw [hrw] at this
    rw [← (g1 i).1 i.2, ← (g2 i).1 i.2, getD_ofFn _ ⟨i, hi⟩, getD_ofFn _ ⟨i, hi⟩]
    exact this
  · have hi : n.nC + i.1 < n.nA := by have := i.2; omega
    have hrw : P.AA ⟨_, hi⟩ = P.L i := by
      have k1 : ¬ n.nC + i.1 < n.nC := by omega
      have k2 : n.nC + i.1 < n.nC + n.nComp := by have := i.2; omega
      funext j
      simp only [Prob.AA, stackRows, dif_neg k1, dif_pos k2, Nat.add_sub_cancel_left]
    have := key ⟨_, hi⟩
    rw [hrw] at this
    rw [← (g1 i).2.1 i.2, ← (g2 i).2.1 i.2, getD_ofFn _ ⟨_, hi⟩, getD_ofFn _ ⟨_, hi⟩]
    exact this
  · have hi : n.nC + n.nComp + i.1 < n.nA := by have := i.2; omega
    have hrw : P.AA ⟨_, hi⟩ = P.R i := by
      have k1 : ¬ n.nC + n.nComp + i.1 < n.nC := by omega
      have k2 : ¬ n.nC + n.nComp + i.1 < n.nC + n.nComp := by omega
      funext j
      simp only [Prob.AA, stackRows, dif_neg k1, dif_neg k2, Nat.add_sub_cancel_left]
    have := key ⟨_, hi⟩
    rw [hrw] at this
    rw [← (g1 i).2.2, ← (g2 i).2.2, getD_ofFn _ ⟨_, hi⟩, getD_ofFn _ ⟨_, hi⟩]
    exact this
  · rw [e3, e4, getD_ofFn, getD_ofFn]
    have hu : ∀ v : Fin n.nV → K, Pi.single i 1 ⬝ᵥ v = v i := fun v => by simp
    have hl1 : l1 (Pi.single i (1 : K)) = 1 := by
      rw [l1, Finset.sum_eq_single i]
      · simp
      · intro j _ hj
        rw [Pi.single_eq_of_ne hj, abs_zero]
      · intro hj
        exact absurd (Finset.mem_univ i) hj
    have := row_to (t := Pi.single i 1) (lo := b.boxLo n i) (hi := b.boxHi n i) hB hS h0 hrow fun k q p h1 h2 h3 x hx => by
      obtain ⟨z, w, hk⟩ := ans k q p h1 h2 h3 x hx
      obtain ⟨g, rfl⟩ := h2
      rw [hu]
      exact ⟨hk.l i, hk.u i⟩
    rw [hu, hl1, mul_one] at this
    exact this

/-- C86: what a complementarity violation below the tolerance says about the single pairs if the sides may be slightly
below their lower bounds: negative products may compensate positive ones, up to the errors times the size of the other sides. -/
theorem C86_products {m : Nat} {a c : Fin m → K} {t tc : K} (ha : ∀ i, -t ≤ a i) (hc : ∀ i, -t ≤ c i) (h : a ⬝ᵥ c < tc) (i : Fin m) :
    a i * c i < tc + t * ∑ j ∈ Finset.univ.erase i, max |a j| |c j| := by
  have key : ∀ j, -(t * max |a j| |c j|) ≤ a j * c j := by
    intro j
    have t0 : 0 ≤ t ∨ t < 0 := le_or_gt 0 t
    rcases le_total 0 (a j) with h1 | h1 <;> rcases le_total 0 (c j) with h2 | h2
    · rcases t0 with t0 | t0
      · have := mul_nonneg t0 ((abs_nonneg (a j)).trans (le_max_left _ |c j|))
        have := mul_nonneg h1 h2
        linarith
      · have e1 : -t ≤ max |a j| |c j| := ((ha j).trans (le_abs_self _)).trans (le_max_left _ _)
        rcases le_total |a j| |c j| with hm | hm
        · rw [max_eq_right hm, abs_of_nonneg h2]
          have := mul_le_mul_of_nonneg_right (ha j) h2
          linarith
        · rw [max_eq_left hm, abs_of_nonneg h1]
          have := mul_le_mul_of_nonneg_left (hc j) h1
          linarith
    · have e1 : |a j| ≤ max |a j| |c j| := le_max_left _ _
      have t1 : 0 ≤ t := by linarith [hc j]
      have e2 := mul_le_mul_of_nonneg_left (hc j) h1
      have e3 := mul_le_mul_of_nonneg_left e1 t1
      rw [abs_of_nonneg h1] at e3 ⊢
      linarith
    · have e1 : |c j| ≤ max |a j| |c j| := le_max_right _ _
      have t1 : 0 ≤ t := by linarith [ha j]
      have e2 := mul_le_mul_of_nonneg_right (ha j) h2
      have e3 := mul_le_mul_of_nonneg_left e1 t1
      rw [abs_of_nonneg h2] at e3 ⊢
      linarith
    · have t1 : 0 ≤ t := by linarith [ha j]
      have := mul_nonneg t1 ((abs_nonneg (a j)).trans (le_max_left _ |c j|))
      have := mul_nonneg_of_nonpos_of_nonpos h1 h2
      linarith
  have hs : a ⬝ᵥ c = a i * c i + ∑ j ∈ Finset.univ.erase i, a j * c j := by
    rw [dotProduct, ← Finset.add_sum_erase _ (fun j => a j * c j) (Finset.mem_univ i)]
  have hl : -(t * ∑ j ∈ Finset.univ.erase i, max |a j| |c j|) ≤ ∑ j ∈ Finset.univ.erase i, a j * c j := by
    rw [Finset.mul_sum, ← Finset.sum_neg_distrib]
    exact Finset.sum_le_sum fun j _ => key j
  linarith

/-- C86: at the point `x` returned by a successful run of a new object with a QP solver that is exact up to `ε`, the derivative of
the penalty function in the direction of any point `y` satisfying the linear constraints, side constraints and bounds is
not below minus the stationarity tolerance times the distance of `y` from `x` and the length of the part of the last step that was
not made, minus `ε` times the sum of the absolute values of the QP solver's last multipliers; these are `z` and `w`, up to the
stationarity tolerance they give the gradient of the penalty function, and the returned ones are computed from them.  (The
perturbation of the steps, if enabled, adds a term of the order of `Utilities::EPS`.) -/
theorem C86_vi {o1 : Obj (Ext K)} {b : Bnds (Ext K)} (hl : Loads e o o1 n P x0 b) (ho : Fresh o n) (he : SolvesTo e n P b ε)
    (hr : o.d.opts.rho0 = fin r0) (hf : o.d.opts.factor = fin f) (f0 : f ≠ 0) (hQ : P.Qᵀ = P.Q) {ts tc : K}
    (hts : o.d.opts.statTol = fin ts) (htc : o.d.opts.complTol = fin tc) {fuel : Nat} {o2 : Obj (Ext K)}
    (h : runSolver e fuel o1 = .ok (some (.successfulReturn, o2))) (hc : o2.s.outer ≠ some 0 ∨ P.gPhi = 0) :
    ∃ (off : Nat) (r : K) (x p : Fin n.nV → K) (a : K) (y : Fin (off + n.nA) → K), o2.d.boxOff = some off ∧ o2.s.xk = some (ev x) ∧
      o2.s.rho = some (fin r) ∧ o2.s.pk = some (ev p) ∧ o2.s.alpha = some (fin a) ∧ 0 < a ∧ a ≤ 1 ∧ P.phi x < tc ∧
      o2.s.yk = some (ev (P.shifted r x y)) ∧
      (∀ i, |(P.gradObj x + r • P.gradPhi x - (P.AAᵀ *ᵥ yLin y + yBox y)) i| < ts) ∧
      ∀ y', b.Feas P y' →
        -(ts * (l1 (y' - x) + (1 - a) * l1 p)) - slack o * (l1 (P.gradObj x + r • P.gradPhi x) + n.nV * ts) -
          ε * (l1 (yLin y) + l1 (yBox y)) ≤ (P.gradObj x + r • P.gradPhi x) ⬝ᵥ (y' - x) := by
  obtain ⟨hS, hst, hop, hB⟩ := hl.setup ho he.1 hr hf f0
  obtain ⟨s, hs, hp⟩ := run_last h
  obtain ⟨off, r, bo, x, p, a, y, v, g, h0, hd, hopt, hsp, hx, hb, hk, hv, ha0, ha1, hstep⟩ := head_rel hS hB he.2 hs
  obtain ⟨h1, h2, h3, h4, h5, h6, h7, _⟩ :=
    pass_success hd hx hb (by rw [hopt, hop]; exact hts) (by rw [hopt, hop]; exact htc) hp rfl
  have hg : (if bo then 0 else r • P.gPhi) = 0 := by
    cases bo
    · obtain ⟨k, hk, hk0, hkb⟩ := h3
      rcases hc with hc | hc
      · have : ¬ (0 < k) := fun h => by simpa using hkb.mpr h
        exact absurd (by rw [hk, le_antisymm (not_lt.mp this) hk0]) hc
      · simp [hc]
    · rfl
  have hgT : P.gT bo r = P.g + r • P.gPhi := by
    cases bo
    · simp only [Bool.false_eq_true, if_false] at hg
      simp [Prob.gT, hg]
    · simp [Prob.gT]
  have hQk : tr o2.d.sparse (P.Q + r • P.C) = P.Q + r • P.C := by
    cases o2.d.sparse
    · rfl
    · apply tr_symm
      rw [Matrix.transpose_add, Matrix.transpose_smul, hQ, P.C_symm]
  have hG : ∀ w, P.gradObj w + r • P.gradPhi w = (P.Q + r • P.C) *ᵥ w + (P.g + r • P.gPhi) := by
    intro w
    rw [P.gradPhi_eq, Prob.gradObj, Matrix.add_mulVec, Matrix.smul_mulVec, smul_add]
    abel
  obtain ⟨h8, h9⟩ := pass_success_step hd hx hp rfl
  have hstat : ∀ i, |(P.gradObj (x + a • p) + r • P.gradPhi (x + a • p) - (P.AAᵀ *ᵥ yLin y + yBox y)) i| < ts := by
    intro i
    have := h2 i
    rw [Prob.stat, hQk, hgT, ← hG, sub_sub] at this
    exact this
  have hsl : slack o1 = slack o := by rw [slack, slack, hop]
  refine ⟨off, r, x + a • p, p, a, y, h0.boxOff, h5, h4, h8, h9, ha0, ha1, h1, h7, hstat, fun w hw => ?_⟩
  have hfe := hst.feasible hB hw
  refine vi_near (hk.vi ⟨hfe.lA, hfe.uA, hfe.l, hfe.u⟩) (fun i => (hstat i).le) ha1 (by rw [← hsl]; exact hv) slack_nonneg ?_
  rcases hstep with h | h
  · exact Or.inl h
  · right
    rw [hQk, hgT] at h
    rw [hG, dotProduct_comm, Matrix.mulVec_add, Matrix.mulVec_smul, add_right_comm, dotProduct_add, dotProduct_smul,
      smul_eq_mul]
    exact h

/-- What C86 says about the final object `o2` of a successful run: the returned point `x` satisfies all linear constraints, side
constraints and bounds up to `ε`, each complementarity product is below the tolerance up to `ε` times the sizes of the sides
of the other pairs, and a point `y` satisfying the constraints whose sides do not clash with those of `x` is at best better by the
stationarity tolerance times the distance of `y` from `x` plus the length of the part of the last step that was not made, plus `ε`
times the sum of the absolute values of the last multipliers of the QP solver. -/
def Bnds.NearMin (b : Bnds (Ext K)) (P : Prob K n) (o2 : Obj (Ext K)) (ε ts tc : K) : Prop :=
  ∃ (off : Nat) (r : K) (x p : Fin n.nV → K) (a : K) (y : Fin (off + n.nA) → K), o2.d.boxOff = some off ∧ o2.s.xk = some (ev x) ∧
    o2.s.rho = some (fin r) ∧ o2.s.pk = some (ev p) ∧ o2.s.alpha = some (fin a) ∧ 0 < a ∧ a ≤ 1 ∧
    o2.s.yk = some (ev (P.shifted r x y)) ∧ b.FeasTo P ε 0 x ∧
    (∀ i, -ε ≤ (P.L *ᵥ x - P.lbL) i ∧ -ε ≤ (P.R *ᵥ x - P.lbR) i ∧ (P.L *ᵥ x - P.lbL) i * (P.R *ᵥ x - P.lbR) i <
      tc + ε * ∑ j ∈ Finset.univ.erase i, max |(P.L *ᵥ x - P.lbL) j| |(P.R *ᵥ x - P.lbR) j|) ∧
    ∀ y', b.Feas P y' → (∀ i, ((P.L *ᵥ x - P.lbL) i = 0 ∨ (P.R *ᵥ y' - P.lbR) i = 0) ∧
        ((P.R *ᵥ x - P.lbR) i = 0 ∨ (P.L *ᵥ y' - P.lbL) i = 0)) →
      P.obj x + 2 * r * P.phi x ≤ P.obj y' + ts * (l1 (y' - x) + (1 - a) * l1 p) + ε * (l1 (yLin y) + l1 (yBox y))

/-- C86: dense or sparse load into a new object and a successful run with a QP solver that is exact up to `ε`, convex objective and
no perturbation. -/
theorem C86_loads {o1 : Obj (Ext K)} {b : Bnds (Ext K)} (hl : Loads e o o1 n P x0 b) (ho : Fresh o n) (he : SolvesTo e n P b ε)
    (hr : o.d.opts.rho0 = fin r0) (hf : o.d.opts.factor = fin f) (f0 : f ≠ 0) (hQ : P.Qᵀ = P.Q) (hpsd : ∀ v, 0 ≤ v ⬝ᵥ (P.Q *ᵥ v))
    (hper : o.d.opts.perturb = false) {ts tc : K} (hts : o.d.opts.statTol = fin ts) (htc : o.d.opts.complTol = fin tc)
    {fuel : Nat} {o2 : Obj (Ext K)} (h : runSolver e fuel o1 = .ok (some (.successfulReturn, o2)))
    (hc : o2.s.outer ≠ some 0 ∨ P.gPhi = 0) : b.NearMin P o2 ε ts tc := by
  obtain ⟨s, ⟨s0, h0, _⟩, _⟩ := run_last h
  obtain ⟨k, x', _, _, q1, q2⟩ := C86_rows hl ho he hr hf f0 h h0
  obtain ⟨off, r, x, p, a, y, k1, k2, k3, k4, k5, k6, k7, k8, k9, _, k10⟩ := C86_vi hl ho he hr hf f0 hQ hts htc h hc
  have e1 : x = x' := by rw [k2] at q1; exact ev_inj (Option.some.inj q1)
  subst e1
  have hsl : slack o = 0 := by rw [slack, hper]; rfl
  rw [hsl, mul_zero] at q2
  have side : ∀ (b ub : Option (List (Ext K))) (w v : Fin n.nComp → K) (t : Fin n.nComp → K),
      WithinTo b ub (fin 0) pinf t v → (∀ i, t i = ε) → ((b = none ∧ w = 0) ∨ ArgVec b n.nComp w) → ∀ i, -ε ≤ (v - w) i := by
    intro b ub w v t hw ht hb i
    have h1 := (hw i).1
    rw [ht] at h1
    rcases hb with ⟨rfl, rfl⟩ | ⟨lst, rfl, hl, rfl⟩
    · simp [orFill, List.getD_eq_getElem?_getD] at h1
      have : 0 ≤ v i + ε := by simpa using h1
      rw [sub_zero]
      linarith
    · have hi : i.1 < lst.length := lt_of_lt_of_le i.2 hl
      have : (orFill (some (emb lst)) n.nComp (fin 0)).getD i nan = fin (vec n.nComp lst i) := by
        simp [orFill, List.getD_eq_getElem?_getD, emb, vec, hi]
      rw [this] at h1
      have h2 : vec n.nComp lst i ≤ v i + ε := by simpa using h1
      rw [Pi.sub_apply]
      linarith
  have hL := side _ _ P.lbL _ _ q2.L (fun i => by simp) (by
    rcases hl.low with ⟨h1, h2, h3, h4⟩ | ⟨h1, h2⟩
    · exact Or.inl ⟨h1, h3⟩
    · exact Or.inr h1)
  have hR := side _ _ P.lbR _ _ q2.R (fun i => by simp) (by
    rcases hl.low with ⟨h1, h2, h3, h4⟩ | ⟨h1, h2⟩
    · exact Or.inl ⟨h2, h4⟩
    · exact Or.inr h2)
  refine ⟨off, r, x, p, a, y, k1, k2, k3, k4, k5, k6, k7, k9, q2, fun i => ⟨hL i, hR i, C86_products hL hR k8 i⟩, fun y' hy hcr => ?_⟩
  have h9 := k10 y' hy
  rw [hsl, zero_mul, sub_zero, add_dotProduct, smul_dotProduct, gradPhi_dot, smul_eq_mul, cross_zero hcr] at h9
  have h10 := obj_convex hQ hpsd x y'
  have e3 : r * (0 - 2 * P.phi x) = -(2 * r * P.phi x) := by ring
  rw [e3] at h9
  linarith

end LCQ
