import Verif.Lemmas.EnoughRun
import Verif.Props.CertifyEx
import Verif.Props.Run

/-!
# C55: for a strongly convex objective the number of iterations is bounded independently of the iteration limit

The bound depends on the problem, the initial guess, the initial penalty parameter, the update factor, the stationarity
tolerance and the largest penalty parameter, but not on the answers chosen by the QP solver, the form in which the problem
is stored, the choice of the QP solver, or any other option.
-/

set_option linter.unusedSectionVars false

namespace LCQ
open Scalar Ext
open scoped Matrix

variable {K : Type} [Field K] [LinearOrder K] [IsStrictOrderedRing K] {n : Dims} {P : Prob K n} {e : Env (Ext K)}
  {o o' : Obj (Ext K)} {x0 : Fin n.nV → K} {r0 f ts R m : K} {d : Data (Ext K)} {lA uA : Fin n.nA → Ext K}
  {l u : Fin n.nV → Ext K}

/-- `Q` is symmetric and `v'Qv ≥ m v'v` with `m > 0` -/
structure StronglyConvex (Q : Matrix (Fin n.nV) (Fin n.nV) K) (m : K) : Prop where
  symm : Qᵀ = Q
  pos : 0 < m
  form : ∀ v, m * (v ⬝ᵥ v) ≤ v ⬝ᵥ (Q *ᵥ v)

/-- what is fixed: the loaded object holds the problem `P` with the given bounds; QP answers are exact; options -/
structure Fixed (e : Env (Ext K)) (o : Obj (Ext K)) (P : Prob K n) (lA uA : Fin n.nA → Ext K) (l u : Fin n.nV → Ext K)
    (x0 : Fin n.nV → K) (r0 f ts R : K) : Prop where
  setup : Setup e o n P x0 r0 f
  bounds : BoundsAre o n lA uA l u
  exact : ExactOn e n (IsSub P lA uA l u)
  perturb : o.d.opts.perturb = false
  statTol : o.d.opts.statTol = fin ts
  maxRho : o.d.opts.maxRho = fin R

/-- size of the first answer -/
theorem first_bound (hc : StronglyConvex P.Q m) {y : Fin n.nV → K} (hy : Feasible P lA uA l u y) (g : Fin n.nV → K) :
    ∃ X, ∀ v z w, (P.subQp lA uA l u g).Kkt v z w → v ⬝ᵥ v ≤ X := by
  refine ⟨((P.subQp lA uA l u g).obj y + (g ⬝ᵥ g) / m) / (m / 4), fun v z w h => ?_⟩
  have hm := hc.pos
  have hpsd : ∀ v, 0 ≤ v ⬝ᵥ ((P.subQp lA uA l u g).H *ᵥ v) := fun v =>
    (mul_nonneg hm.le (dot_self_nonneg v)).trans (hc.form v)
  have h1 := h.min hc.symm hpsd (y := y) ⟨hy.lA, hy.uA, hy.l, hy.u⟩
  have h2 := lin_ge hm g v
  have h3 := hc.form v
  rw [le_div_iff₀ (by linarith)]
  have h4 : (P.subQp lA uA l u g).obj v = g ⬝ᵥ v + v ⬝ᵥ (P.Q *ᵥ v) / 2 := rfl
  rw [h4] at h1
  linarith

/-- C55: at every head of the main loop of every run the number of iterations made is at most `B`. -/
theorem C55_head [Archimedean K] (hc : StronglyConvex P.Q m) (hphi : ∀ x, Feasible P lA uA l u x → 0 ≤ P.phi x)
    (hr0 : 0 < r0) (hf : 1 < f) (hts : 0 < ts) :
    ∃ B : Nat, ∀ (e : Env (Ext K)) (o : Obj (Ext K)), Fixed e o P lA uA l u x0 r0 f ts R →
      ∀ (d : Data (Ext K)) (s : St (Ext K)), AtHead e o d s → ∃ t k : Nat, Live o.d.opts s t k ∧ t ≤ B ∧
        ((t = 0 ∧ k = 0) ∨ (o.d.opts.maxRho <. penalty o.d.opts k) = false) := by
  by_cases hfe : ∃ y, Feasible P lA uA l u y
  · obtain ⟨y, hy⟩ := hfe
    obtain ⟨X1, hX1⟩ := first_bound hc hy P.g
    obtain ⟨X2, hX2⟩ := first_bound hc hy (P.g + r0 • (P.C *ᵥ x0))
    obtain ⟨kmax, hkm⟩ := pow_unbounded_of_one_lt (R / r0) hf
    have hL := move_level (kmax := kmax) hc.symm hc.pos hc.form hts hr0 (lt_trans one_pos hf) hphi
    obtain ⟨B, hB⟩ := common (p := fun k B => ∀ x, x ⬝ᵥ x ≤ max X1 X2 → ∀ t z,
        Steps (Move P lA uA l u r0 f ts kmax) t (k, x) z → t ≤ B) (m := kmax)
      (fun k a b hab h x hx t z hs => (h x hx t z hs).trans hab)
      (fun k _ => hL.bound (kmax - k) k (le_refl _) (max X1 X2))
    refine ⟨B + 1, fun e o hF d s hs => ?_⟩
    have hmax : ∀ k, (o.d.opts.maxRho <. penalty o.d.opts k) = false → k ≤ kmax := by
      intro k hk
      by_contra hlt
      rw [hF.maxRho, penalty_fin hF.setup.rho0 hF.setup.factor, fin_lt] at hk
      have h1 : r0 * f ^ k ≤ R := not_lt.mp (by simpa using hk)
      rw [div_lt_iff₀ hr0] at hkm
      have h2 : f ^ kmax ≤ f ^ k := pow_le_pow_right₀ hf.le (by omega)
      have h3 := mul_le_mul_of_nonneg_left h2 hr0.le
      rw [mul_comm r0 (f ^ kmax)] at h3
      linarith
    obtain ⟨t, k, hl, hk, ht⟩ := head_moves hF.setup hF.bounds hF.exact hF.perturb hc.symm hF.statTol hmax hs
    refine ⟨t, k, hl, ?_, hk⟩
    rcases ht with ht | ⟨v, z, w, x, k0, ht, hk0, _, hkkt, hst⟩
    · omega
    · have hv : v ⬝ᵥ v ≤ max X1 X2 := by
        split at hkkt
        · exact (hX1 v z w hkkt).trans (le_max_left _ _)
        · exact (hX2 v z w hkkt).trans (le_max_right _ _)
      have := hB k0 hk0 v hv _ _ hst
      omega
  · refine ⟨0, fun e o hF d s hs => ?_⟩
    exfalso
    obtain ⟨x, p, a, _, _, _, _, _, _, _, h⟩ := head_feas hF.setup hF.bounds hF.exact.feas hF.perturb hs
    exact hfe ⟨_, h⟩

/-- C55: every run that starts the main loop and returns has made at most `B` iterations, whatever the iteration limit. -/
theorem C55_iterations [Archimedean K] (hc : StronglyConvex P.Q m) (hphi : ∀ x, Feasible P lA uA l u x → 0 ≤ P.phi x)
    (hr0 : 0 < r0) (hf : 1 < f) (hts : 0 < ts) :
    ∃ B : Nat, ∀ (e : Env (Ext K)) (o : Obj (Ext K)), Fixed e o P lA uA l u x0 r0 f ts R →
      ∀ (fuel : Nat) (rv : RV) (o' : Obj (Ext K)), runSolver e fuel o = .ok (some (rv, o')) →
      ∀ (d : Data (Ext K)) (s0 : St (Ext K)), Enters e o d s0 → o'.s.stats.iterTotal ≤ B ∧ o'.s.total = some o'.s.stats.iterTotal := by
  obtain ⟨B, hB⟩ := C55_head (P := P) (lA := lA) (uA := uA) (l := l) (u := u) (x0 := x0) (R := R) hc hphi hr0 hf hts
  refine ⟨B + 1, fun e o hF fuel rv o' hrun d s0 h0 => ?_⟩
  obtain ⟨_, s, hs, hp⟩ := run_end hrun h0
  obtain ⟨t, k, hl, ht, hk⟩ := hB e o hF _ s hs
  have ho : o'.d.opts = o.d.opts := by
    obtain ⟨_, _, _, ho, _⟩ := hF.setup.head hs
    exact ho
  rw [← ho] at hl hk
  rcases hl.pass hk hp with ⟨_, _, ⟨⟩, _⟩ | ⟨q, k', h1, hend, _⟩
  injection h1 with h1
  subst h1
  obtain ⟨c1, c2, _⟩ := hend.counts
  refine ⟨?_, by rw [c1, c2]⟩
  rw [c2]
  omega

/-- C55: an iteration limit of at least `B` is never hit. -/
theorem C55_enough [Archimedean K] (hc : StronglyConvex P.Q m) (hphi : ∀ x, Feasible P lA uA l u x → 0 ≤ P.phi x)
    (hr0 : 0 < r0) (hf : 1 < f) (hts : 0 < ts) :
    ∃ B : Nat, ∀ (e : Env (Ext K)) (o : Obj (Ext K)), Fixed e o P lA uA l u x0 r0 f ts R → (B : Int) ≤ o.d.opts.maxIter →
      ∀ (fuel : Nat) (rv : RV) (o' : Obj (Ext K)), runSolver e fuel o = .ok (some (rv, o')) → rv ≠ .maxIterationsReached := by
  obtain ⟨B, hB⟩ := C55_iterations (P := P) (lA := lA) (uA := uA) (l := l) (u := u) (x0 := x0) (R := R) hc hphi hr0 hf hts
  refine ⟨B, fun e o hF hm fuel rv o' hrun hrv => ?_⟩
  subst hrv
  rcases C19_codes hrun with ⟨i, _, _, h1, h2⟩ | ⟨i, hi, hi1, _, h⟩
  · simp at h2
  · rcases h with ⟨h, _⟩ | ⟨_, _, h⟩ | ⟨h, _⟩ | ⟨h, _⟩
    · cases h
    · obtain ⟨j, hj, hcase⟩ := runSolver_inv hrun
      rw [hi] at hj
      injection hj with hj
      subst hj
      rcases hcase with ⟨hne, _⟩ | ⟨_, hd, hf' | ⟨s0, hf', _⟩⟩
      · exact hne hi1
      · rcases Live.first hi hi1 hf' with ⟨_, ⟨⟩, _⟩ | ⟨q, hq, _, _, _, _, _, _, h0, _⟩
        injection hq with hq
        subst hq
        dsimp only at h h0
        rw [h0] at h
        omega
      · have := (hB e o hF fuel _ o' hrun _ s0 ⟨i, hi, hi1, rfl, hf'⟩).1
        dsimp only at h
        omega
    · cases h
    · cases h with
      | osqp _ Q A hs hrv => simp at hrv

/-! ## loading -/

/-- the vector with the entries of a list -/
def vecOf (m : Nat) (v : List (Ext K)) : Fin m → Ext K := fun i => v.getD i nan

theorem vecOf_eq {m : Nat} {v : List (Ext K)} (h : v.length = m) : v = List.ofFn (vecOf m v) := by
  subst h
  apply List.ext_getElem
  · simp
  · intro i h1 h2
    simp [vecOf, List.getD_eq_getElem?_getD, h1]

/-- lower bounds of all linear constraints of the subproblem -/
def Bnds.rowLo (b : Bnds (Ext K)) (n : Dims) : Fin n.nA → Ext K :=
  vecOf n.nA (orFill b.lbA n.nC ninf ++ orFill b.lbL n.nComp (fin 0) ++ orFill b.lbR n.nComp (fin 0))

/-- upper bounds of all linear constraints of the subproblem -/
def Bnds.rowHi (b : Bnds (Ext K)) (n : Dims) : Fin n.nA → Ext K :=
  vecOf n.nA (orFill b.ubA n.nC pinf ++ orFill b.ubL n.nComp pinf ++ orFill b.ubR n.nComp pinf)

/-- lower bounds of the variables -/
def Bnds.boxLo (b : Bnds (Ext K)) (n : Dims) : Fin n.nV → Ext K := vecOf n.nV (orFill b.lb n.nV ninf)

/-- upper bounds of the variables -/
def Bnds.boxHi (b : Bnds (Ext K)) (n : Dims) : Fin n.nV → Ext K := vecOf n.nV (orFill b.ub n.nV pinf)

theorem Stored.bounds {b : Bnds (Ext K)} (hs : Stored o n b) (hl : OptLen b.lb n.nV) (hu : OptLen b.ub n.nV) :
    BoundsAre o n (b.rowLo n) (b.rowHi n) (b.boxLo n) (b.boxHi n) := by
  have hA : n.nA = n.nC + 2 * n.nComp := rfl
  obtain ⟨l1, l2, l3, l4, l5, l6⟩ := hs.lens
  refine ⟨?_, ?_, ?_, ?_⟩
  · rw [hs.lbA]
    refine congrArg some (vecOf_eq ?_)
    simp only [List.length_append, orFill_len l1, orFill_len l3, orFill_len l5]
    omega
  · rw [hs.ubA]
    refine congrArg some (vecOf_eq ?_)
    simp only [List.length_append, orFill_len l2, orFill_len l4, orFill_len l6]
    omega
  · rw [hs.lb]
    exact vecOf_eq (orFill_len hl)
  · rw [hs.ub]
    exact vecOf_eq (orFill_len hu)

/-- the complementarity violation is not negative at feasible points -/
theorem phi_nonneg {b : Bnds (Ext K)} {x : Fin n.nV → K} (h : b.Feas P x) (hlow : ArgLow b.lbL b.lbR n.nComp P.lbL P.lbR) :
    0 ≤ P.phi x := by
  rw [Prob.phi, dotProduct]
  refine Finset.sum_nonneg fun i _ => ?_
  have := C27_products h hlow (lt_add_one (P.phi x)) i
  exact mul_nonneg this.1 this.2.1

/-- what the load functions and the options provide, for given bound arguments `b` -/
theorem C55_stored [Archimedean K] {b : Bnds (Ext K)} (hlow : ArgLow b.lbL b.lbR n.nComp P.lbL P.lbR)
    (hc : StronglyConvex P.Q m) (hr0 : 0 < r0) (hf : 1 < f) (hts : 0 < ts) (hl : OptLen b.lb n.nV) (hu : OptLen b.ub n.nV) :
    ∃ B : Nat, ∀ (e : Env (Ext K)) (o : Obj (Ext K)), Stored o n b → Fixed e o P (b.rowLo n) (b.rowHi n) (b.boxLo n) (b.boxHi n) x0 r0 f ts R →
      (B : Int) ≤ o.d.opts.maxIter → ∀ (fuel : Nat) (rv : RV) (o' : Obj (Ext K)), runSolver e fuel o = .ok (some (rv, o')) →
      rv ≠ .maxIterationsReached := by
  by_cases h : ∃ o : Obj (Ext K), Stored o n b
  · obtain ⟨o, ho⟩ := h
    obtain ⟨B, hB⟩ := C55_enough (P := P) (x0 := x0) (R := R) hc (fun x hx => phi_nonneg (ho.feas (ho.bounds hl hu) hx) hlow)
      hr0 hf hts
    exact ⟨B, fun e o _ hF => hB e o hF⟩
  · exact ⟨0, fun e o ho => absurd ⟨o, ho⟩ h⟩

/-- C55, dense load: for given arguments with a strongly convex objective there is a number `B` such that a new object with
the given penalty parameters and stationarity tolerance, no perturbation and an iteration limit of at least `B` never runs
into the iteration limit if the QP answers are exact. -/
theorem C55_dense [Archimedean K] {a : DenseArgs (Ext K)} (ha : a.Are n P x0) (hc : StronglyConvex P.Q m) (hr0 : 0 < r0)
    (hf : 1 < f) (hts : 0 < ts) :
    ∃ B : Nat, ∀ (e : Env (Ext K)) (o o1 : Obj (Ext K)), Built o n → NoLow o → o.d.lbTmp = none → o.d.ubTmp = none →
      o.d.opts.rho0 = fin r0 → o.d.opts.factor = fin f → o.d.opts.statTol = fin ts → o.d.opts.maxRho = fin R →
      o.d.opts.perturb = false → (B : Int) ≤ o.d.opts.maxIter → loadDense e o a = .ok (.successfulReturn, o1) → FinAns e →
      ExactOn e n (IsSub P (a.bnds.rowLo n) (a.bnds.rowHi n) (a.bnds.boxLo n) (a.bnds.boxHi n)) →
      ∀ (fuel : Nat) (rv : RV) (o2 : Obj (Ext K)), runSolver e fuel o1 = .ok (some (rv, o2)) → rv ≠ .maxIterationsReached := by
  obtain ⟨B, hB⟩ := C55_stored (P := P) (b := a.bnds) (x0 := x0) (R := R) ha.low hc hr0 hf hts ha.fits.lb ha.fits.ub
  refine ⟨B, fun e o o1 hb hn hl hu h1 h2 h3 h4 h5 h6 hload he hE fuel rv o2 hrun => ?_⟩
  have hs := Stored.dense hb hl hu ha.fits hload
  obtain ⟨hS, _⟩ := Setup.dense hb hn ha hload h1 h2 (lt_trans one_pos hf).ne' he
  have ho : o1.d.opts = o.d.opts := (hb.load ha.fits (argLow_pair ha.low) hload).2.1
  exact hB e o1 hs ⟨hS, hs.bounds ha.fits.lb ha.fits.ub, hE, ho ▸ h5, ho ▸ h3, ho ▸ h4⟩ (ho ▸ h6) fuel rv o2 hrun

/-- C55, sparse load. -/
theorem C55_sparse [Archimedean K] {a : SparseArgs (Ext K)} (ha : a.Are n P x0) (hc : StronglyConvex P.Q m) (hr0 : 0 < r0)
    (hf : 1 < f) (hts : 0 < ts) :
    ∃ B : Nat, ∀ (e : Env (Ext K)) (o o1 : Obj (Ext K)), Built o n → o.s.idxC = [] → NoLow o → o.d.lbTmp = none →
      o.d.ubTmp = none → o.d.opts.rho0 = fin r0 → o.d.opts.factor = fin f → o.d.opts.statTol = fin ts →
      o.d.opts.maxRho = fin R → o.d.opts.perturb = false → (B : Int) ≤ o.d.opts.maxIter →
      loadSparse e o a = .ok (.successfulReturn, o1) → FinAns e →
      ExactOn e n (IsSub P (a.bnds.rowLo n) (a.bnds.rowHi n) (a.bnds.boxLo n) (a.bnds.boxHi n)) →
      ∀ (fuel : Nat) (rv : RV) (o2 : Obj (Ext K)), runSolver e fuel o1 = .ok (some (rv, o2)) → rv ≠ .maxIterationsReached := by
  obtain ⟨B, hB⟩ := C55_stored (P := P) (b := a.bnds) (x0 := x0) (R := R) ha.low hc hr0 hf hts ha.fits.lb ha.fits.ub
  refine ⟨B, fun e o o1 hb hi hn hl hu h1 h2 h3 h4 h5 h6 hload he hE fuel rv o2 hrun => ?_⟩
  have hs := Stored.sparse hb hl hu ha.fits hload
  obtain ⟨hS, _⟩ := Setup.sparse hb hi hn ha hload h1 h2 (lt_trans one_pos hf).ne' he
  have ho : o1.d.opts = o.d.opts := (hb.loadSparse hi ha.fits (argLow_pair ha.low) hload).2.1
  exact hB e o1 hs ⟨hS, hs.bounds ha.fits.lb ha.fits.ub, hE, ho ▸ h5, ho ▸ h3, ho ▸ h4⟩ (ho ▸ h6) fuel rv o2 hrun

end LCQ
