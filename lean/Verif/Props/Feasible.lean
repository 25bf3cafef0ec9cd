import Verif.Props.Subproblem

/-!
# C27 in terms of the arguments of the load functions
-/

set_option linter.unusedSectionVars false

namespace LCQ
open Scalar Ext
open scoped Matrix

variable {K : Type} [Field K] [LinearOrder K] [IsStrictOrderedRing K] {n : Dims} {P : Prob K n} {e : Env (Ext K)}
  {o o' : Obj (Ext K)} {x0 : Fin n.nV → K} {r0 f : K} {lA uA : Fin n.nA → Ext K} {l u : Fin n.nV → Ext K}

/-- the bound arguments of the load functions -/
structure Bnds (α : Type) where
  /-- bounds of the linear constraints -/
  lbA : Option (List α)
  /-- bounds of the linear constraints -/
  ubA : Option (List α)
  /-- bounds of `Lx` -/
  lbL : Option (List α)
  /-- bounds of `Lx` -/
  ubL : Option (List α)
  /-- bounds of `Rx` -/
  lbR : Option (List α)
  /-- bounds of `Rx` -/
  ubR : Option (List α)
  /-- bounds of `x` -/
  lb : Option (List α)
  /-- bounds of `x` -/
  ub : Option (List α)

/-- bounds given to the dense load function -/
def DenseArgs.bnds {α : Type} (a : DenseArgs α) : Bnds α := ⟨a.lbA, a.ubA, a.lbL, a.ubL, a.lbR, a.ubR, a.lb, a.ub⟩

/-- bounds given to the sparse load function -/
def SparseArgs.bnds {α : Type} (a : SparseArgs α) : Bnds α := ⟨a.lbA, a.ubA, a.lbL, a.ubL, a.lbR, a.ubR, a.lb, a.ub⟩

/-- `v` lies between the optional bounds, missing ones being replaced by the given defaults -/
def Within (lo hi : Option (List (Ext K))) (dl du : Ext K) {m : Nat} (v : Fin m → K) : Prop :=
  ∀ i : Fin m, ((orFill lo m dl).getD i nan <=. fin (v i)) = true ∧ (fin (v i) <=. (orFill hi m du).getD i nan) = true

/-- `lbA ≤ Ax ≤ ubA`, `lbL ≤ Lx ≤ ubL`, `lbR ≤ Rx ≤ ubR`, `lb ≤ x ≤ ub`; a missing lower complementarity bound is zero,
every other missing bound infinite -/
structure Bnds.Feas (b : Bnds (Ext K)) (P : Prob K n) (x : Fin n.nV → K) : Prop where
  A : Within b.lbA b.ubA ninf pinf (P.A *ᵥ x)
  L : Within b.lbL b.ubL (fin 0) pinf (P.L *ᵥ x)
  R : Within b.lbR b.ubR (fin 0) pinf (P.R *ᵥ x)
  box : Within b.lb b.ub ninf pinf x

theorem AA_A (x : Fin n.nV → K) {i : Nat} (h : i < n.nC) (h' : i < n.nA) : (P.AA *ᵥ x) ⟨i, h'⟩ = (P.A *ᵥ x) ⟨i, h⟩ := by
  simp only [Matrix.mulVec, Prob.AA, stackRows, dotProduct, dif_pos h]

theorem AA_L (x : Fin n.nV → K) {i : Nat} (h : i < n.nComp) (h' : n.nC + i < n.nA) :
    (P.AA *ᵥ x) ⟨n.nC + i, h'⟩ = (P.L *ᵥ x) ⟨i, h⟩ := by
  have h1 : ¬ n.nC + i < n.nC := by omega
  have h2 : n.nC + i < n.nC + n.nComp := by omega
  simp only [Matrix.mulVec, Prob.AA, stackRows, dotProduct, dif_neg h1, dif_pos h2, Nat.add_sub_cancel_left]

theorem AA_R (x : Fin n.nV → K) {i : Nat} (h : i < n.nComp) (h' : n.nC + n.nComp + i < n.nA) :
    (P.AA *ᵥ x) ⟨n.nC + n.nComp + i, h'⟩ = (P.R *ᵥ x) ⟨i, h⟩ := by
  have h1 : ¬ n.nC + n.nComp + i < n.nC := by omega
  have h2 : ¬ n.nC + n.nComp + i < n.nC + n.nComp := by omega
  simp only [Matrix.mulVec, Prob.AA, stackRows, dotProduct, dif_neg h1, dif_neg h2, Nat.add_sub_cancel_left]

theorem getD_ofFn {m : Nat} (v : Fin m → Ext K) (i : Fin m) : (List.ofFn v).getD i nan = v i := by
  simp [List.getD_eq_getElem?_getD]

/-- the bounds stored by a load function -/
structure Stored (o : Obj (Ext K)) (n : Dims) (b : Bnds (Ext K)) : Prop where
  lens : OptLen b.lbA n.nC ∧ OptLen b.ubA n.nC ∧ OptLen b.lbL n.nComp ∧ OptLen b.ubL n.nComp ∧ OptLen b.lbR n.nComp ∧
    OptLen b.ubR n.nComp
  lbA : o.d.lbA = some (orFill b.lbA n.nC ninf ++ orFill b.lbL n.nComp (fin 0) ++ orFill b.lbR n.nComp (fin 0))
  ubA : o.d.ubA = some (orFill b.ubA n.nC pinf ++ orFill b.ubL n.nComp pinf ++ orFill b.ubR n.nComp pinf)
  lb : orFill o.d.lbTmp n.nV ninf = orFill b.lb n.nV ninf
  ub : orFill o.d.ubTmp n.nV pinf = orFill b.ub n.nV pinf

theorem orFill_len {b : Option (List (Ext K))} {m : Nat} {v : Ext K} (h : OptLen b m) : (orFill b m v).length = m := by
  cases b with
  | none => simp [orFill]
  | some b => have := h b rfl; simp [orFill]; omega

theorem getD_app3 {a b c : List (Ext K)} {m k : Nat} (ha : a.length = m) (hb : b.length = k) (i : Nat) :
    (i < m → (a ++ b ++ c).getD i nan = a.getD i nan) ∧ (i < k → (a ++ b ++ c).getD (m + i) nan = b.getD i nan) ∧
    (a ++ b ++ c).getD (m + k + i) nan = c.getD i nan := by
  subst ha hb
  simp only [List.getD_eq_getElem?_getD]
  refine ⟨fun h => ?_, fun h => ?_, ?_⟩
  · rw [List.getElem?_append_left (by simp; omega), List.getElem?_append_left h]
  · rw [List.getElem?_append_left (by simp; omega), List.getElem?_append_right (by omega), Nat.add_sub_cancel_left]
  · rw [List.getElem?_append_right (by simp)]
    simp

theorem Stored.feas {b : Bnds (Ext K)} (hs : Stored o n b) (hB : BoundsAre o n lA uA l u) {x : Fin n.nV → K}
    (h : Feasible P lA uA l u x) : b.Feas P x := by
  have hA : n.nA = n.nC + 2 * n.nComp := rfl
  have e1 := hs.lbA.symm.trans hB.lbA
  have e2 := hs.ubA.symm.trans hB.ubA
  injection e1 with e1
  injection e2 with e2
  have e3 := hs.lb.symm.trans hB.lb
  have e4 := hs.ub.symm.trans hB.ub
  obtain ⟨l1, l2, l3, l4, l5, l6⟩ := hs.lens
  have g1 := getD_app3 (c := orFill b.lbR n.nComp (fin 0)) (orFill_len (v := ninf) l1) (orFill_len (v := fin 0) l3)
  have g2 := getD_app3 (c := orFill b.ubR n.nComp pinf) (orFill_len (v := pinf) l2) (orFill_len (v := pinf) l4)
  rw [e1] at g1
  rw [e2] at g2
  have hl := h.lA
  have hu := h.uA
  simp only [Prob.subQp] at hl hu
  refine ⟨fun i => ?_, fun i => ?_, fun i => ?_, fun i => ?_⟩
  · have hi : i.1 < n.nA := by have := i.2; omega
    rw [← (g1 i).1 i.2, ← (g2 i).1 i.2, getD_ofFn lA ⟨i, hi⟩, getD_ofFn uA ⟨i, hi⟩, ← AA_A x i.2 hi]
    exact ⟨hl _, hu _⟩
  · have hi : n.nC + i.1 < n.nA := by have := i.2; omega
    rw [← (g1 i).2.1 i.2, ← (g2 i).2.1 i.2, getD_ofFn lA ⟨_, hi⟩, getD_ofFn uA ⟨_, hi⟩, ← AA_L x i.2 hi]
    exact ⟨hl _, hu _⟩
  · have hi : n.nC + n.nComp + i.1 < n.nA := by have := i.2; omega
    rw [← (g1 i).2.2, ← (g2 i).2.2, getD_ofFn lA ⟨_, hi⟩, getD_ofFn uA ⟨_, hi⟩, ← AA_R x i.2 hi]
    exact ⟨hl _, hu _⟩
  · rw [e3, e4, getD_ofFn, getD_ofFn]
    exact ⟨h.l i, h.u i⟩

theorem Stored.dense {a : DenseArgs (Ext K)} (hb : Built o n) (hl : o.d.lbTmp = none) (hu : o.d.ubTmp = none)
    (hf : a.Fits n) (h : loadDense e o a = .ok (.successfulReturn, o')) : Stored o' n a.bnds := by
  have h1 := C14_stored e o o' n a hb.dims hb.nV hb.nComp hf h
  obtain ⟨h2, h3⟩ := C14_box e o o' n a hb.dims hb.nV hb.nComp hf h
  refine ⟨⟨hf.lbA, hf.ubA, hf.lbL, hf.ubL, hf.lbR, hf.ubR⟩, ?_, ?_, ?_, ?_⟩
  · rw [h1.lbA, zero_fin]; rfl
  · rw [h1.ubA]; rfl
  · rw [h2, hl]; cases hc : a.lb <;> simp [orFill, DenseArgs.bnds, hc, List.take_take]
  · rw [h3, hu]; cases hc : a.ub <;> simp [orFill, DenseArgs.bnds, hc, List.take_take]

theorem Stored.sparse {a : SparseArgs (Ext K)} (hb : Built o n) (hl : o.d.lbTmp = none) (hu : o.d.ubTmp = none)
    (hf : a.Fits n) (h : loadSparse e o a = .ok (.successfulReturn, o')) : Stored o' n a.bnds := by
  obtain ⟨h1, _, h2, h3⟩ := C16_vectors e o o' n a hb.dims hb.nV hb.nComp hf h
  refine ⟨⟨hf.lbA, hf.ubA, hf.lbL, hf.ubL, hf.lbR, hf.ubR⟩, ?_, ?_, ?_, ?_⟩
  · rw [h1.lbA, zero_fin]; rfl
  · rw [h1.ubA]; rfl
  · rw [h2, hl]; cases hc : a.lb <;> simp [orFill, SparseArgs.bnds, hc, List.take_take]
  · rw [h3, hu]; cases hc : a.ub <;> simp [orFill, SparseArgs.bnds, hc, List.take_take]

/-- C27: dense load into an object without box bounds from earlier use, then a run in which all QP answers are
feasible: the point left by the run satisfies the constraints given to the load function. -/
theorem C27_dense {a : DenseArgs (Ext K)} (hb : Built o n) (hn : NoLow o) (hl : o.d.lbTmp = none) (hu : o.d.ubTmp = none)
    (ha : a.Are n P x0) (h : loadDense e o a = .ok (.successfulReturn, o')) (hr : o.d.opts.rho0 = fin r0)
    (hf : o.d.opts.factor = fin f) (f0 : f ≠ 0) (he : FinAns e) (hF : ∀ lA uA l u, BoundsAre o' n lA uA l u → FeasOn e n (IsSub P lA uA l u))
    (hper : o.d.opts.perturb = false) {fuel : Nat} {rv : RV} {o2 : Obj (Ext K)}
    (hrun : runSolver e fuel o' = .ok (some (rv, o2))) {d : Data (Ext K)} {s0 : St (Ext K)} (h0 : Enters e o' d s0) :
    ∃ x, o2.s.xk = some (ev x) ∧ a.bnds.Feas P x := by
  obtain ⟨hS, _⟩ := Setup.dense hb hn ha h hr hf f0 he
  obtain ⟨lA, uA, l, u, hB⟩ := boundsAre_ex hS.ready
  have ho : o'.d.opts = o.d.opts := (hb.load ha.fits (argLow_pair ha.low) h).2.1
  obtain ⟨x, hx, hfe⟩ := C27_run hS hB (hF lA uA l u hB) (by rw [ho]; exact hper) hrun h0
  exact ⟨x, hx, (Stored.dense hb hl hu ha.fits h).feas hB hfe⟩

/-- C27: the same for a sparse load. -/
theorem C27_sparse {a : SparseArgs (Ext K)} (hb : Built o n) (hi : o.s.idxC = []) (hn : NoLow o) (hl : o.d.lbTmp = none)
    (hu : o.d.ubTmp = none) (ha : a.Are n P x0) (h : loadSparse e o a = .ok (.successfulReturn, o'))
    (hr : o.d.opts.rho0 = fin r0) (hf : o.d.opts.factor = fin f) (f0 : f ≠ 0) (he : FinAns e)
    (hF : ∀ lA uA l u, BoundsAre o' n lA uA l u → FeasOn e n (IsSub P lA uA l u)) (hper : o.d.opts.perturb = false) {fuel : Nat} {rv : RV}
    {o2 : Obj (Ext K)} (hrun : runSolver e fuel o' = .ok (some (rv, o2))) {d : Data (Ext K)} {s0 : St (Ext K)}
    (h0 : Enters e o' d s0) : ∃ x, o2.s.xk = some (ev x) ∧ a.bnds.Feas P x := by
  obtain ⟨hS, _⟩ := Setup.sparse hb hi hn ha h hr hf f0 he
  obtain ⟨lA, uA, l, u, hB⟩ := boundsAre_ex hS.ready
  have ho : o'.d.opts = o.d.opts := (hb.loadSparse hi ha.fits (argLow_pair ha.low) h).2.1
  obtain ⟨x, hx, hfe⟩ := C27_run hS hB (hF lA uA l u hB) (by rw [ho]; exact hper) hrun h0
  exact ⟨x, hx, (Stored.sparse hb hl hu ha.fits h).feas hB hfe⟩

/-- C27: at a point satisfying the constraints the complementarity violation is a sum of non-negative products, so the
bound on it established by a successful run bounds each product. -/
theorem C27_products {b : Bnds (Ext K)} {x : Fin n.nV → K} (h : b.Feas P x) (hlow : ArgLow b.lbL b.lbR n.nComp P.lbL P.lbR)
    {tc : K} (hphi : P.phi x < tc) :
    ∀ i, 0 ≤ (P.L *ᵥ x - P.lbL) i ∧ 0 ≤ (P.R *ᵥ x - P.lbR) i ∧
      (P.L *ᵥ x - P.lbL) i * (P.R *ᵥ x - P.lbR) i < tc := by
  have key : ∀ (b ub : Option (List (Ext K))) (du : Ext K) (w v : Fin n.nComp → K), Within b ub (fin 0) du v →
      ((b = none ∧ w = 0) ∨ ArgVec b n.nComp w) → ∀ i, 0 ≤ (v - w) i := by
    intro b ub du w v hw hb i
    have h1 := (hw i).1
    rcases hb with ⟨rfl, rfl⟩ | ⟨lst, rfl, hl, rfl⟩
    · simp [orFill, List.getD_eq_getElem?_getD] at h1
      simpa using h1
    · have hi : i.1 < lst.length := lt_of_lt_of_le i.2 hl
      have : (orFill (some (emb lst)) n.nComp (fin 0)).getD i nan = fin (vec n.nComp lst i) := by
        simp [orFill, List.getD_eq_getElem?_getD, emb, vec, hi]
      rw [this] at h1
      have h2 : vec n.nComp lst i ≤ v i := by simpa using h1
      simpa using h2
  have hL : ∀ i, 0 ≤ (P.L *ᵥ x - P.lbL) i := key _ _ _ _ _ h.L (by
    rcases hlow with ⟨h1, h2, h3, h4⟩ | ⟨h1, h2⟩
    · exact Or.inl ⟨h1, h3⟩
    · exact Or.inr h1)
  have hR : ∀ i, 0 ≤ (P.R *ᵥ x - P.lbR) i := key _ _ _ _ _ h.R (by
    rcases hlow with ⟨h1, h2, h3, h4⟩ | ⟨h1, h2⟩
    · exact Or.inl ⟨h2, h4⟩
    · exact Or.inr h2)
  intro i
  refine ⟨hL i, hR i, lt_of_le_of_lt ?_ hphi⟩
  exact Finset.single_le_sum (f := fun i => (P.L *ᵥ x - P.lbL) i * (P.R *ᵥ x - P.lbR) i)
    (fun j _ => mul_nonneg (hL j) (hR j)) (Finset.mem_univ i)

end LCQ
