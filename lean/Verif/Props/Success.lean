import Verif.Lemmas.Success
import Verif.Props.Enough
import Verif.Lemmas.Modes

/-!
# C85: problems that are solved for sure
-/

set_option linter.unusedSectionVars false

namespace LCQ
open Scalar Ext
open scoped Matrix

/-- C85: for a strongly convex objective and a feasible point whose mixed products vanish there is a number such that no run with a
larger limit of the penalty parameter reaches this limit, whatever the limit of the number of passes, the stationarity tolerance,
the dynamic penalty rule and the choice of the first subproblem. -/
theorem Ref.C85_penalty {K : Type} [Field K] [LinearOrder K] [IsStrictOrderedRing K] [Archimedean K] {m : Nat} {A : Ref.Pb K m}
    {c0 : K} {y x0 : Fin m → K} {c f tc r0 : K} (h : Ref.Apex A c0 y) (hc0 : 0 < c) (hc : ∀ v, c * (v ⬝ᵥ v) ≤ v ⬝ᵥ (A.Q *ᵥ v))
    (hf : 1 < f) (ht : 0 < tc) (hr : 0 < r0) :
    ∃ Rs, ∀ o : Ref.Par K, o.factor = f → o.complTol = tc → o.perturb = false → Rs ≤ o.maxRho →
      ∀ h0 k fuel q, Ref.Run A o r0 x0 h0 k fuel (some q) → q.1 ≠ .maxPenaltyReached := by
  obtain ⟨G, M, D, F, δ, r1, N, hC, hG⟩ := Ref.consts h hc0 hc hf ht hr x0
  refine ⟨r1 * f * f * (f * f) ^ N * (f * f), fun o h1 h2 h3 h4 h0 k fuel q hrun => ?_⟩
  obtain ⟨v, hv, hl⟩ := hrun
  have ex : (Ref.move (Ref.start A o r0 x0 h0 k v)).x = v := by simp [Ref.move, Ref.start]
  have hg := hG o v hv
  refine Ref.Inv.loop h hC h1 h2 h3 h4 ⟨?_, ?_, hr, le_refl _, fun _ => ⟨rfl, ?_⟩, Or.inl hC.r01⟩ hl
  · rw [ex]; exact hv.1
  · rw [ex]; exact hC.level v hv.1 hg
  · rw [ex]; exact hg

variable {K : Type} [Field K] [LinearOrder K] [IsStrictOrderedRing K] {n : Dims} {P : Prob K n} {b : Bnds (Ext K)}
  {x0 y : Fin n.nV → K} {r0 f ts tc m : K}

/-- the mixed product of two points -/
theorem mix_eq (lA uA : Fin n.nA → Ext K) (l u : Fin n.nV → Ext K) (x v : Fin n.nV → K) :
    (P.ref lA uA l u).mix (P.lbL ⬝ᵥ P.lbR) x v =
      (P.L *ᵥ x - P.lbL) ⬝ᵥ (P.R *ᵥ v - P.lbR) + (P.L *ᵥ v - P.lbL) ⬝ᵥ (P.R *ᵥ x - P.lbR) := by
  have h1 : x ⬝ᵥ (P.C *ᵥ v) = (P.L *ᵥ x) ⬝ᵥ (P.R *ᵥ v) + (P.R *ᵥ x) ⬝ᵥ (P.L *ᵥ v) := by
    rw [Prob.C, Matrix.add_mulVec, dotProduct_add, ← Matrix.mulVec_mulVec, ← Matrix.mulVec_mulVec,
      Matrix.dotProduct_mulVec x P.Lᵀ, Matrix.dotProduct_mulVec x P.Rᵀ, Matrix.vecMul_transpose, Matrix.vecMul_transpose]
  have h2 : ∀ z, P.gPhi ⬝ᵥ z = -(P.lbL ⬝ᵥ (P.R *ᵥ z)) - P.lbR ⬝ᵥ (P.L *ᵥ z) := by
    intro z
    rw [Prob.gPhi, neg_dotProduct, add_dotProduct, Matrix.mulVec_transpose, Matrix.mulVec_transpose, ← Matrix.dotProduct_mulVec,
      ← Matrix.dotProduct_mulVec]
    ring
  change x ⬝ᵥ (P.C *ᵥ v) + P.gPhi ⬝ᵥ x + P.gPhi ⬝ᵥ v + 2 * (P.lbL ⬝ᵥ P.lbR) = _
  rw [h1, h2, h2]
  simp only [sub_dotProduct, dotProduct_sub]
  rw [dotProduct_comm (P.R *ᵥ x), dotProduct_comm P.lbR (P.L *ᵥ x), dotProduct_comm P.lbR (P.L *ᵥ v)]
  ring

/-- the lengths of the box bounds of a load -/
theorem Loads.boxes {e : Env (Ext K)} {o o1 : Obj (Ext K)} (h : Loads e o o1 n P x0 b) : OptLen b.lb n.nV ∧ OptLen b.ub n.nV := by
  rcases h with ⟨c, hc, rfl, _⟩ | ⟨c, hc, rfl, _⟩
  · exact ⟨hc.fits.lb, hc.fits.ub⟩
  · exact ⟨hc.fits.lb, hc.fits.ub⟩

/-- C85: a problem with strongly convex objective and a point that satisfies all linear constraints and bounds and where both sides
of every complementarity pair are at their lower bounds (for instance 0).  For given initial guess, initial penalty
parameter, factor of the penalty updates and complementarity tolerance there is a number `Rs` such that no run of a new object
with exact QP answers, no perturbation and a limit of the penalty parameter of at least `Rs` is ended by this limit: it is
successful, or ended by the iteration limit, unless a QP call fails.  The other options, the form of the load, and
the QP solver do not matter. -/
theorem C85_codes [Archimedean K] (hc : StronglyConvex P.Q m) (hy : b.Feas P y) (hL : P.L *ᵥ y = P.lbL) (hR : P.R *ᵥ y = P.lbR)
    (hr0 : 0 < r0) (hf : 1 < f) (htc : 0 < tc) :
    ∃ Rs, ∀ a : Ref.Par K, a.factor = f → a.complTol = tc → a.perturb = false → Rs ≤ a.maxRho →
      ∀ (e : Env (Ext K)) (o o1 : Obj (Ext K)), Fresh o n → Loads e o o1 n P x0 b → SolvesExactly e n P b → a.Of e o.d.opts →
      o.d.opts.rho0 = fin r0 → ∀ (fuel : Nat) (rv : RV) (o2 : Obj (Ext K)), runSolver e fuel o1 = .ok (some (rv, o2)) →
      Ref.Own rv → rv = .successfulReturn ∨ rv = .maxIterationsReached := by
  by_cases hex : ArgLow b.lbL b.lbR n.nComp P.lbL P.lbR ∧ OptLen b.lb n.nV ∧ OptLen b.ub n.nV ∧
      ∃ o : Obj (Ext K), Stored o n b
  · obtain ⟨hlow, hl, hu, os, hos⟩ := hex
    have hB := hos.bounds hl hu
    have hA : Ref.Apex (P.ref (b.rowLo n) (b.rowHi n) (b.boxLo n) (b.boxHi n)) (P.lbL ⬝ᵥ P.lbR) y := by
      refine ⟨hc.symm, fun x v c hx hv h0 h1 => hx.comb hv h0 h1, P.C_symm, fun x => P.phi_eq x, fun x v hx hv => ?_,
        hos.feasible hB hy, fun x _ => ?_⟩
      · rw [mix_eq]
        have s1 := C27_products (hos.feas hB hx) hlow (lt_add_one (P.phi x))
        have s2 := C27_products (hos.feas hB hv) hlow (lt_add_one (P.phi v))
        exact add_nonneg (Finset.sum_nonneg fun i _ => mul_nonneg (s1 i).1 (s2 i).2.1)
          (Finset.sum_nonneg fun i _ => mul_nonneg (s2 i).1 (s1 i).2.1)
      · rw [mix_eq, hL, hR, sub_self, sub_self]
        simp
    obtain ⟨Rs, hRs⟩ := Ref.C85_penalty (x0 := x0) hA hc.pos hc.form hf htc hr0
    refine ⟨Rs, fun a a1 a3 a4 a5 e o o1 ho hld he ha hr fuel rv o2 hrun hown => ?_⟩
    have f0 : a.factor ≠ 0 := by rw [a1]; exact (lt_trans one_pos hf).ne'
    obtain ⟨j, s, _⟩ := hld.job ho he hr ha f0
    have hpsd : ∀ v, 0 ≤ v ⬝ᵥ (P.Q *ᵥ v) := fun v => (mul_nonneg hc.pos.le (dot_self_nonneg v)).trans (hc.form v)
    obtain ⟨t, h1, _⟩ := (C70_reference j hc.symm hpsd).1 _ _ hrun hown
    have h2 := hRs a a1 a3 a4 a5 _ _ _ _ h1
    rcases hown with h | h | h
    · exact Or.inl h
    · exact Or.inr h
    · exact absurd h h2
  · refine ⟨0, fun a a1 _ _ _ e o o1 ho hld he ha hr => ?_⟩
    exfalso
    have f0 : a.factor ≠ 0 := by rw [a1]; exact (lt_trans one_pos hf).ne'
    obtain ⟨_, s, _⟩ := hld.job ho he hr ha f0
    exact hex ⟨hld.low, hld.boxes.1, hld.boxes.2, o1, s⟩

/-- C85: under the assumptions of `C85_codes`, with a positive stationarity tolerance, there is for every limit `R ≥ Rs` of the
penalty parameter a number `B` such that all these runs are successful if the iteration limit is at least `B`. -/
theorem C85_success [Archimedean K] (hc : StronglyConvex P.Q m) (hy : b.Feas P y) (hL : P.L *ᵥ y = P.lbL) (hR : P.R *ᵥ y = P.lbR)
    (hr0 : 0 < r0) (hf : 1 < f) (hts : 0 < ts) (htc : 0 < tc) :
    ∃ Rs, ∀ R, Rs ≤ R → ∃ B : Nat, ∀ a : Ref.Par K, a.factor = f → a.statTol = ts → a.complTol = tc → a.perturb = false →
      a.maxRho = R → (B : Int) ≤ a.maxIter →
      ∀ (e : Env (Ext K)) (o o1 : Obj (Ext K)), Fresh o n → Loads e o o1 n P x0 b → SolvesExactly e n P b → a.Of e o.d.opts →
      o.d.opts.rho0 = fin r0 → ∀ (fuel : Nat) (rv : RV) (o2 : Obj (Ext K)), runSolver e fuel o1 = .ok (some (rv, o2)) →
      Ref.Own rv → rv = .successfulReturn := by
  obtain ⟨Rs, hRs⟩ := C85_codes (x0 := x0) hc hy hL hR hr0 hf htc
  refine ⟨Rs, fun R hR' => ?_⟩
  by_cases hex : ArgLow b.lbL b.lbR n.nComp P.lbL P.lbR ∧ OptLen b.lb n.nV ∧ OptLen b.ub n.nV
  · obtain ⟨hlow, hl, hu⟩ := hex
    obtain ⟨B, hB'⟩ := C55_stored (P := P) (b := b) (x0 := x0) (R := R) hlow hc hr0 hf hts hl hu
    refine ⟨B, fun a a1 a2 a3 a4 a5 a6 e o o1 ho hld he ha hr fuel rv o2 hrun hown => ?_⟩
    have f0 : a.factor ≠ 0 := by rw [a1]; exact (lt_trans one_pos hf).ne'
    obtain ⟨j, s, _⟩ := hld.job ho he hr ha f0
    have h3 := hB' e o1 s ⟨a1 ▸ j.setup, j.bounds, j.exact, by rw [j.opts.perturb, a4], by rw [j.opts.statTol, a2],
      by rw [j.opts.maxRho, a5]⟩ (by rw [j.opts.maxIter]; exact a6) fuel rv o2 hrun
    exact (hRs a a1 a3 a4 (by rw [a5]; exact hR') e o o1 ho hld he ha hr fuel rv o2 hrun hown).resolve_right h3
  · exact ⟨0, fun a a1 _ _ _ _ _ e o o1 ho hld he ha hr => absurd ⟨hld.low, hld.boxes.1, hld.boxes.2⟩ hex⟩

/-- with matching qpOASES mode and QP calls that succeed, a run ends with one of its own codes -/
theorem matched_own {e : Env (Ext K)} {o : Obj (Ext K)} (hR : Ready o n) (hm : Matched o) {N : Int} (he : AnsBnd e N)
    (hs : Small o.d.opts N) (hq : ∀ k r, (∀ Q A, r.sub ≠ .osqp Q A) → (e.qp k r).ret = 0) :
    ∃ rv o2, runSolver e (o.d.opts.maxIter.toNat + 1) o = .ok (some (rv, o2)) ∧ Ref.Own rv := by
  obtain ⟨q, h1, _⟩ := runSolver_total hR he hs (fun h => by rcases hm with ⟨h', _⟩ | ⟨h', _⟩ <;> rw [h'] at h <;> cases h)
    (o.d.opts.maxIter.toNat + 1)
  cases q with
  | none => exact absurd h1 (C18_terminates e o _ (Nat.le_refl _))
  | some r =>
    obtain ⟨rv, o2⟩ := r
    refine ⟨rv, o2, h1, ?_⟩
    obtain ⟨i, sub, hd, hi, hok, _, hsub, _⟩ := initializeSolver_qpo (e := e) hR hm
    rcases C19_codes h1 with ⟨j, hj, hne, _⟩ | ⟨j, hj, _, _, hc⟩
    · rw [hi] at hj
      injection hj with hj
      subst hj
      exact absurd hok hne
    · rcases hc with ⟨h, _⟩ | ⟨h, _⟩ | ⟨h, _⟩ | ⟨h, _⟩
      · exact Or.inl h
      · exact Or.inr (Or.inl h)
      · exact Or.inr (Or.inr h)
      · exfalso
        have hdd : o2.d.sub = some sub := by rw [(run_ended h1 hi hok).1]; exact hsub
        dsimp only at h
        cases h with
        | answer sub' req hs' hreq hc hbad hx =>
          rw [hdd] at hs'
          injection hs' with hs'
          subst hs'
          cases hd with
          | dense Q A => exact hbad (hq _ _ (by rw [hreq]; nofun))
          | sparse Q A => exact hbad (hq _ _ (by rw [hreq]; nofun))
        | osqp rv Q A hs' _ =>
          rw [hdd] at hs'
          injection hs' with hs'
          subst hs'
          cases hd

/-- C85, total: under the assumptions of `C85_codes`, with qpOASES in the mode of the loaded data, QP calls that succeed, and
counters that stay in range, `runSolver` returns, and returns success or reaches its iteration limit. -/
theorem C85_total [Archimedean K] (hc : StronglyConvex P.Q m) (hy : b.Feas P y) (hL : P.L *ᵥ y = P.lbL) (hR : P.R *ᵥ y = P.lbR)
    (hr0 : 0 < r0) (hf : 1 < f) (htc : 0 < tc) :
    ∃ Rs, ∀ a : Ref.Par K, a.factor = f → a.complTol = tc → a.perturb = false → Rs ≤ a.maxRho →
      ∀ (e : Env (Ext K)) (o o1 : Obj (Ext K)), Fresh o n → Loads e o o1 n P x0 b → SolvesExactly e n P b → a.Of e o.d.opts →
      o.d.opts.rho0 = fin r0 → Matched o1 → (∀ k r, (∀ Q A, r.sub ≠ .osqp Q A) → (e.qp k r).ret = 0) →
      ∀ N, AnsBnd e N → Small o1.d.opts N → ∃ rv o2, runSolver e (o1.d.opts.maxIter.toNat + 1) o1 = .ok (some (rv, o2)) ∧
        (rv = .successfulReturn ∨ rv = .maxIterationsReached) := by
  obtain ⟨Rs, h⟩ := C85_codes (x0 := x0) hc hy hL hR hr0 hf htc
  refine ⟨Rs, fun a a1 a3 a4 a5 e o o1 ho hld he ha hr hm hq N hN hs => ?_⟩
  have f0 : a.factor ≠ 0 := by rw [a1]; exact (lt_trans one_pos hf).ne'
  obtain ⟨j, _, _⟩ := hld.job ho he hr ha f0
  obtain ⟨rv, o2, h1, h2⟩ := matched_own j.setup.ready hm hN hs hq
  exact ⟨rv, o2, h1, h a a1 a3 a4 a5 e o o1 ho hld he ha hr _ _ _ h1 h2⟩

end LCQ
