import Verif.Props.Success
import Verif.Props.IndependentEx

/-!
# C85: examples, and a problem that is never solved
-/

set_option linter.unusedSectionVars false

namespace LCQ
open Scalar Ext
open scoped Matrix

/-- C85: if a point solves all subproblems that are linearised at it, runs that reach it stay there; they are not successful
if the complementarity function does not vanish there -/
theorem Ref.C85_stays {K : Type} [Field K] [LinearOrder K] [IsStrictOrderedRing K] {m : Nat} {A : Ref.Pb K m} {o : Ref.Par K}
    {x : Fin m → K} (hh : A.h = 0) (hx : ∀ (r : K) v, 0 ≤ r → Ref.IsMin A (r • (A.C *ᵥ x) + A.g) v → v = x) (hf : 0 ≤ o.factor)
    (hp : o.perturb = false) (hc : o.complTol ≤ A.phi x) {k : Nat} {s : Ref.St K m} {q : RV × Ref.St K m} (hs : (Ref.move s).x = x)
    (hr : 0 ≤ s.r) (h : Ref.Loop A o k s (some q)) : q.1 ≠ .successfulReturn ∧ q.2.x = x := by
  generalize hq : some q = Q at h
  induction h with
  | out => cases hq
  | @stop _ s q' h1 =>
    injection hq with hq
    subst hq
    refine ⟨fun he => ?_, (((Ref.head_keeps s).2 _ h1).2).trans hs⟩
    have hd : (Ref.dyn A o (Ref.move s)).x = x := (Ref.dyn_cases (A := A) (o := o) (Ref.move s)).1.trans hs
    simp only [Ref.head, hd] at h1
    rw [if_neg (fun h => absurd h.2 (not_lt.mpr hc))] at h1
    split_ifs at h1 <;> (injection h1 with h1; rw [← h1] at he; cases he)
  | @next _ s t v _ h1 h2 _ ih =>
    have ht : t.x = x ∧ 0 ≤ t.r := by
      obtain ⟨d1, d2⟩ := Ref.dyn_cases (A := A) (o := o) (Ref.move s)
      have hdr : 0 ≤ (Ref.dyn A o (Ref.move s)).r := by
        rcases d2 with ⟨e, _⟩ | ⟨e, _, _⟩ <;> rw [e]
        · exact hr
        · exact mul_nonneg hr hf
      have hw : (if Ref.Stat A o (Ref.move s) then Ref.bump o (Ref.dyn A o (Ref.move s)) else Ref.dyn A o (Ref.move s)).x = x ∧
          0 ≤ (if Ref.Stat A o (Ref.move s) then Ref.bump o (Ref.dyn A o (Ref.move s)) else Ref.dyn A o (Ref.move s)).r := by
        split_ifs
        · exact ⟨d1.trans hs, mul_nonneg hdr hf⟩
        · exact ⟨d1.trans hs, hdr⟩
      simp only [Ref.head] at h1
      generalize (if Ref.Stat A o (Ref.move s) then Ref.bump o (Ref.dyn A o (Ref.move s)) else Ref.dyn A o (Ref.move s)) = w at h1 hw
      split_ifs at h1
      injection h1 with h1
      rw [← h1]
      exact hw
    have hsub : Ref.sub A t = t.r • (A.C *ᵥ x) + A.g := by
      simp only [Ref.sub, Ref.lin, hh, smul_zero, add_zero, ite_self, ht.1]
    rw [hsub] at h2
    have hv := hx _ _ ht.2 h2
    subst hv
    refine ih ?_ ht.2 hq
    simp only [Ref.move, Ref.step, hp, Bool.false_eq_true, if_false, ht.1, sub_self, smul_zero, add_zero]

namespace Ex

/-- `min (x-1)² + (y-1)²` subject to `3x + y ≥ 4`, `x + 3y ≥ 4`, `0 ≤ x ⟂ y ≥ 0` -/
def probZ : Prob ℚ ⟨2, 2, 1⟩ where
  Q := mat 2 2 [2, 0, 0, 2]
  g := vec 2 [-2, -2]
  A := mat 2 2 [3, 1, 1, 3]
  L := mat 1 2 [1, 0]
  R := mat 1 2 [0, 1]
  lbL := vec 1 [0]
  lbR := vec 1 [0]

/-- its arguments -/
def argsZ : DenseArgs (Ext ℚ) where
  Q := some (emb [2, 0, 0, 2])
  g := some (emb [-2, -2])
  A := some (emb [3, 1, 1, 3])
  lbA := some (emb [4, 4])
  L := some (emb [1, 0])
  R := some (emb [0, 1])
  lbL := some (emb [0])
  lbR := some (emb [0])

theorem argsZ_are : argsZ.Are ⟨2, 2, 1⟩ probZ 0 := by
  refine ⟨⟨⟨_, rfl, by simp [emb]⟩, ⟨_, rfl, by simp [emb]⟩, ⟨_, rfl, by simp [emb]⟩, ?_, ?_, ?_, ?_, ?_, ?_, ?_, ?_, ?_, ?_, ?_, ?_⟩,
    ⟨_, rfl, by simp, rfl⟩, ⟨_, rfl, by simp, rfl⟩, Or.inr ⟨_, rfl, by simp, rfl⟩, ⟨_, rfl, by simp, rfl⟩,
    ⟨_, rfl, by simp, rfl⟩, Or.inr ⟨⟨_, rfl, by simp, rfl⟩, _, rfl, by simp, rfl⟩, Or.inl ⟨rfl, rfl⟩⟩
  all_goals (rintro v ⟨⟩ <;> rfl)

/-- a QP solver that solves all subproblems that are linearised at points with equal coordinates, and fails for others -/
def solverZ : Env (Ext ℚ) := envOf fun _ q =>
  if val q.g 1 = val q.g 0 ∧ -2 ≤ val q.g 0 then
    match q.sub with
    | .osqp _ _ => good [1, 1] [-((val q.g 0 + 2) / 4), -((val q.g 0 + 2) / 4), 0, 0]
    | _ => good [1, 1] [0, 0, (val q.g 0 + 2) / 4, (val q.g 0 + 2) / 4, 0, 0]
  else { good [] [] with ret := 1 }

theorem solverZ_fin : FinAns solverZ := by
  intro k q _ i
  simp only [solverZ, envOf]
  split
  · split <;> exact ⟨⟨_, rfl⟩, ⟨_, rfl⟩⟩
  · exact ⟨⟨_, rfl⟩, ⟨_, rfl⟩⟩

theorem AAZ (x : Fin 2 → ℚ) : probZ.AA *ᵥ x = ![3 * x 0 + x 1, x 0 + 3 * x 1, x 0, x 1] := by
  ext i
  change ∑ j : Fin 2, probZ.AA i j * x j = _
  rw [Fin.sum_univ_two]
  revert i
  change ∀ i : Fin 4, _
  intro i
  fin_cases i <;> simp [probZ, Prob.AA, stackRows, mat]

theorem AAZ' (z : Fin 4 → ℚ) : probZ.AAᵀ *ᵥ z = ![3 * z 0 + z 1 + z 2, z 0 + 3 * z 1 + z 3] := by
  ext i
  change ∑ j : Fin 4, probZ.AA j i * z j = _
  rw [Fin.sum_univ_four]
  revert i
  change ∀ i : Fin 2, _
  intro i
  fin_cases i <;> simp [probZ, Prob.AA, stackRows, mat]

theorem QZ (x : Fin 2 → ℚ) : probZ.Q *ᵥ x = ![2 * x 0, 2 * x 1] := by
  ext i
  change ∑ j : Fin 2, probZ.Q i j * x j = _
  rw [Fin.sum_univ_two]
  revert i
  change ∀ i : Fin 2, _
  intro i
  fin_cases i <;> simp [probZ, mat]

theorem CZ (x : Fin 2 → ℚ) : probZ.C *ᵥ x = ![x 1, x 0] := by
  have h : ∀ i j : Fin 2, probZ.C i j = if i = j then 0 else 1 := by
    intro i j; fin_cases i <;> fin_cases j <;> decide +kernel
  ext i
  change ∑ j : Fin 2, probZ.C i j * x j = _
  rw [Fin.sum_univ_two, h, h]
  revert i
  change ∀ i : Fin 2, _
  intro i
  fin_cases i <;> simp

theorem rowsZ : argsZ.bnds.rowLo ⟨2, 2, 1⟩ = ![fin 4, fin 4, fin 0, fin 0] ∧ argsZ.bnds.rowHi ⟨2, 2, 1⟩ = (fun _ => pinf) ∧
    argsZ.bnds.boxLo ⟨2, 2, 1⟩ = (fun _ => ninf) ∧ argsZ.bnds.boxHi ⟨2, 2, 1⟩ = (fun _ => pinf) := by
  have h4 : ∀ p : Fin 4 → Prop, p 0 → p 1 → p 2 → p 3 → ∀ i, p i := by
    intro p h0 h1 h2 h3 i
    fin_cases i <;> assumption
  exact ⟨funext (h4 _ (by decide +kernel) (by decide +kernel) (by decide +kernel) (by decide +kernel)),
    funext (h4 _ (by decide +kernel) (by decide +kernel) (by decide +kernel) (by decide +kernel)),
    funext (Fin.forall_fin_two.mpr (by decide +kernel)), funext (Fin.forall_fin_two.mpr (by decide +kernel))⟩

theorem kktZ {g : Fin 2 → ℚ} (h1 : g 1 = g 0) (h2 : -2 ≤ g 0) :
    (probZ.subQp ![fin 4, fin 4, fin 0, fin 0] (fun _ => pinf) (fun _ => ninf) (fun _ => pinf) g).Kkt ![1, 1]
      ![(g 0 + 2) / 4, (g 0 + 2) / 4, 0, 0] 0 := by
  have hA : probZ.AA *ᵥ ![1, 1] = ![4, 4, 1, 1] := by
    rw [AAZ]
    ext i
    revert i
    change ∀ i : Fin 4, _
    intro i
    fin_cases i <;> norm_num
  refine ⟨⟨fun i => ?_, fun i => rfl, fun i => rfl, fun i => rfl⟩, ?_, fun i => ?_, fun i => ?_,
    fun i h => absurd h (lt_irrefl _), fun i h => absurd h (lt_irrefl _)⟩
  · change ((![fin 4, fin 4, fin 0, fin 0] : Fin 4 → Ext ℚ) i <=. fin ((probZ.AA *ᵥ ![1, 1]) i)) = true
    rw [hA]
    revert i
    change ∀ i : Fin 4, _
    intro i
    fin_cases i <;> decide +kernel
  · change probZ.Q *ᵥ ![1, 1] + g = probZ.AAᵀ *ᵥ _ + 0
    rw [AAZ', add_zero, QZ]
    ext i
    revert i
    refine Fin.forall_fin_two.mpr ⟨?_, ?_⟩
    · change 2 * 1 + g 0 = 3 * ((g 0 + 2) / 4) + (g 0 + 2) / 4 + 0
      ring
    · change 2 * 1 + g 1 = (g 0 + 2) / 4 + 3 * ((g 0 + 2) / 4) + 0
      rw [h1]
      ring
  · change _ → (![fin 4, fin 4, fin 0, fin 0] : Fin 4 → Ext ℚ) i = fin ((probZ.AA *ᵥ ![1, 1]) i)
    rw [hA]
    revert i
    change ∀ i : Fin 4, _
    intro i
    fin_cases i
    · exact fun _ => rfl
    · exact fun _ => rfl
    · exact fun h => absurd h (lt_irrefl _)
    · exact fun h => absurd h (lt_irrefl _)
  · have hp : ¬ (g 0 + 2) / 4 < 0 := not_lt.mpr (by linarith)
    revert i
    change ∀ i : Fin 4, _
    intro i
    fin_cases i
    · exact fun h => absurd h hp
    · exact fun h => absurd h hp
    · exact fun h => absurd h (lt_irrefl _)
    · exact fun h => absurd h (lt_irrefl _)

theorem exactZ : SolvesExactly solverZ ⟨2, 2, 1⟩ probZ argsZ.bnds := by
  obtain ⟨e1, e2, e3, e4⟩ := rowsZ
  refine ⟨solverZ_fin, ?_⟩
  rw [e1, e2, e3, e4]
  rintro k q _ hq ⟨g, rfl⟩ hok
  have h0 : val q.g 0 = g 0 := by rw [hq.g]; rfl
  have h1 : val q.g 1 = g 1 := by rw [hq.g]; rfl
  obtain ⟨sub, q2, q3, q4, q5, q6, q7, q8, q9, q10, q11⟩ := q
  dsimp only at h0 h1 hok ⊢
  have hr : (solverZ.qp k ⟨sub, q2, q3, q4, q5, q6, q7, q8, q9, q10, q11⟩).ret = 0 := by
    cases sub with
    | dense a b c d => exact hok
    | sparse a b c d => exact hok
    | osqp a b => exact hok.1
  by_cases hc : g 1 = g 0 ∧ -2 ≤ g 0
  · refine ⟨_, _, 0, ?_, kktZ hc.1 hc.2⟩
    have two : ∀ p : Fin 2 → Prop, p 0 → p 1 → ∀ i, p i := fun p a b => Fin.forall_fin_two.mpr ⟨a, b⟩
    have four : ∀ p : Fin 4 → Prop, p 0 → p 1 → p 2 → p 3 → ∀ i, p i := by
      intro p h0 h1 h2 h3 i
      fin_cases i <;> assumption
    cases sub with
    | dense a b c d =>
      simp only [solverZ, envOf, h0, h1, hc.1, hc.2, and_self, if_true]
      exact ⟨two _ rfl rfl, two _ rfl rfl, four _ rfl rfl rfl rfl⟩
    | sparse a b c d =>
      simp only [solverZ, envOf, h0, h1, hc.1, hc.2, and_self, if_true]
      exact ⟨two _ rfl rfl, two _ rfl rfl, four _ rfl rfl rfl rfl⟩
    | osqp a b =>
      simp only [solverZ, envOf, h0, h1, hc.1, hc.2, and_self, if_true]
      exact ⟨two _ rfl rfl, four _ rfl rfl rfl rfl, rfl⟩
  · exfalso
    simp only [solverZ, envOf, h0, h1, if_neg hc] at hr
    exact absurd hr (by decide)

theorem convexZ : StronglyConvex probZ.Q 2 := by
  refine ⟨?_, by norm_num, fun v => ?_⟩
  · ext i j
    revert i j
    exact Fin.forall_fin_two.mpr ⟨Fin.forall_fin_two.mpr ⟨rfl, rfl⟩, Fin.forall_fin_two.mpr ⟨rfl, rfl⟩⟩
  · rw [QZ]
    change 2 * ∑ i : Fin 2, v i * v i ≤ ∑ i : Fin 2, v i * (![2 * v 0, 2 * v 1] : Fin 2 → ℚ) i
    rw [Fin.sum_univ_two, Fin.sum_univ_two]
    simp only [Matrix.cons_val_zero, Matrix.cons_val_one]
    linarith

theorem lookZ : lookI solverZ (loadDense solverZ (Obj.new opts5L 2 2 1) argsZ) =
    some (.successfulReturn, .maxPenaltyReached, some (emb [1, 1])) := by
  decide +kernel

/-- options with a given limit of the penalty parameter -/
def optsR (R : ℚ) : Options (Ext ℚ) := { opts5L with maxRho := fin R }

/-- the assumptions of `C85_total` hold for `min (x-2)² + (y-1)²` subject to `0 ≤ x ⟂ y ≥ 0` with the point 0, an initial guess that
is a local solution, and all large limits of the penalty parameter -/
example : ∃ Rs, ∀ R, Rs ≤ R → ∃ o1 rv o2, loadDense (solver ans4) (Obj.new (optsR R) 2 0 1) args5L = .ok (.successfulReturn, o1) ∧
    runSolver (solver ans4) 1001 o1 = .ok (some (rv, o2)) ∧ (rv = .successfulReturn ∨ rv = .maxIterationsReached) := by
  have hx : ArgOpt (some (emb [0, 1])) 2 (![0, 1] : Fin 2 → ℚ) := Or.inr ⟨[0, 1], rfl, by decide, by decide +kernel⟩
  have hare : args5L.Are dim prob5L ![0, 1] := argsOf_are rfl rfl rfl rfl (by rintro v ⟨⟩) (by rintro v ⟨⟩) hx
  have hc : StronglyConvex prob5L.Q 2 := by
    refine ⟨(prob_psd (by decide)).1, by norm_num, fun v => ?_⟩
    have hs : v ⬝ᵥ (prob5L.Q *ᵥ v) = 2 * (v ⬝ᵥ v) := by
      change ∑ i : Fin 2, v i * (prob5L.Q *ᵥ v) i = 2 * ∑ i : Fin 2, v i * v i
      rw [Fin.sum_univ_two, Fin.sum_univ_two, prob_Q, prob_Q]
      ring
    exact hs.ge
  have hy : args5L.bnds.Feas prob5L 0 := by
    refine ⟨fun i => i.elim0, fun i => ?_, fun i => ?_, Fin.forall_fin_two.mpr (by decide +kernel)⟩
    all_goals
      obtain rfl : i = 0 := Subsingleton.elim (α := Fin 1) i 0
      decide +kernel
  obtain ⟨Rs, h⟩ := C85_total (K := ℚ) (n := dim) (P := prob5L) (b := args5L.bnds) (x0 := ![0, 1]) (y := 0) (r0 := 4000) (f := 2)
    (tc := 1 / 1000) hc hy (by rw [Matrix.mulVec_zero]; decide +kernel) (by rw [Matrix.mulVec_zero]; decide +kernel)
    (by norm_num) (by norm_num) (by norm_num)
  refine ⟨Rs, fun R hR => ?_⟩
  obtain ⟨o1, l1, l2, l3⟩ : ∃ o1, loadDense (solver ans4) (Obj.new (optsR R) 2 0 1) args5L = .ok (.successfulReturn, o1) ∧
      o1.d.opts = optsR R ∧ o1.d.sparse = false := ⟨_, rfl, rfl, rfl⟩
  have hq : ∀ k r, (∀ Q A, r.sub ≠ .osqp Q A) → ((solver ans4).qp k r).ret = 0 := by
    intro k r hr
    obtain ⟨sub, q2, q3, q4, q5, q6, q7, q8, q9, q10, q11⟩ := r
    cases sub with
    | osqp a b => exact absurd rfl (hr a b)
    | dense a b c d => rfl
    | sparse a b c d => rfl
  have hN : AnsBnd (solver ans4) 3 := by
    intro k r
    have h3 : ((solver ans4).qp k r).iter = 3 := by
      simp only [solver, envOf]
      split <;> rfl
    rw [h3]
    exact ⟨by decide, by decide⟩
  have hof := parIn_of ans4
  have hr0 : opts5L.rho0 = fin 4000 := rfl
  have hsm : Small opts5L 3 := ⟨by decide, by decide, by decide⟩
  obtain ⟨rv, o2, h1, h2⟩ := h { parIn with maxRho := R } rfl rfl rfl hR (solver ans4) (Obj.new (optsR R) 2 0 1) o1
    (fresh_new _ (by decide) (by decide)) (Or.inl ⟨_, hare, rfl, l1⟩) exact5L
    ⟨hof.factor, hof.statTol, hof.complTol, rfl, hof.eta, rfl, rfl, rfl, rfl, rfl⟩ (hr0.trans rfl)
    (Or.inl ⟨by rw [l2]; rfl, l3⟩) hq 3 hN (by rw [l2]; exact ⟨hsm.iter, hsm.outer, hsm.sub⟩)
  rw [l2] at h1
  exact ⟨o1, rv, o2, l1, h1, h2⟩

/-- the run of `C85_codes` with the default limit -/
example : ∃ o o1 o2, Fresh o dim ∧ Loads (solver ans4) o o1 dim prob5L ![0, 1] args5L.bnds ∧
    SolvesExactly (solver ans4) dim prob5L args5L.bnds ∧ parIn.Of (solver ans4) o.d.opts ∧ o.d.opts.rho0 = fin 4000 ∧
    runSolver (solver ans4) 20 o1 = .ok (some (.successfulReturn, o2)) := by
  have hx : ArgOpt (some (emb [0, 1])) 2 (![0, 1] : Fin 2 → ℚ) := Or.inr ⟨[0, 1], rfl, by decide, by decide +kernel⟩
  obtain ⟨o1, o2, h1, h2, _⟩ := loads_of (a := args5L) (v := ![0, 1]) (argsOf_are rfl rfl rfl rfl (by rintro v ⟨⟩)
    (by rintro v ⟨⟩) hx) load5L look5L
  exact ⟨_, o1, o2, fresh_new _ (by decide) (by decide), h1, exact5L, parIn_of _, by decide +kernel, h2⟩

end Ex

/-- C85: a problem with strongly convex objective and points that satisfy all constraints and complementarity, which the solver does not solve, whatever the limits of iterations and penalty parameter, the
initial penalty parameter, and the dynamic penalty rule: every run from the default initial guess (or from any one, if the first
subproblem is solved without penalty term) that is not ended by a failing QP call ends unsuccessfully, in the same point. -/
theorem C85_stuck : ∃ (P : Prob ℚ ⟨2, 2, 1⟩) (b : Bnds (Ext ℚ)) (x : Fin 2 → ℚ), StronglyConvex P.Q 2 ∧ P.phi x = 1 ∧
    (∃ y, b.Solves P y) ∧
    (∀ (a : Ref.Par ℚ) (r0 : ℚ) (x0 : Fin 2 → ℚ), 0 ≤ r0 → 0 < a.factor → a.complTol ≤ 1 → a.perturb = false →
      a.zeroFirst = true ∨ x0 = 0 → ∀ (e : Env (Ext ℚ)) (o o1 : Obj (Ext ℚ)), Fresh o ⟨2, 2, 1⟩ → Loads e o o1 ⟨2, 2, 1⟩ P x0 b →
      SolvesExactly e ⟨2, 2, 1⟩ P b → a.Of e o.d.opts → o.d.opts.rho0 = fin r0 →
      ∀ (fuel : Nat) (rv : RV) (o2 : Obj (Ext ℚ)), runSolver e fuel o1 = .ok (some (rv, o2)) → Ref.Own rv →
      rv ≠ .successfulReturn ∧ o2.s.xk = some (ev x)) ∧
    ∃ (e : Env (Ext ℚ)) (o o1 o2 : Obj (Ext ℚ)), Fresh o ⟨2, 2, 1⟩ ∧ Loads e o o1 ⟨2, 2, 1⟩ P 0 b ∧ SolvesExactly e ⟨2, 2, 1⟩ P b ∧
      runSolver e 20 o1 = .ok (some (.maxPenaltyReached, o2)) ∧ Ex.parIn.Of e o.d.opts := by
  refine ⟨Ex.probZ, Ex.argsZ.bnds, ![1, 1], Ex.convexZ, by decide +kernel, ⟨![4, 0], ?_⟩, ?_, ?_⟩
  · have hA : Ex.probZ.A *ᵥ ![4, 0] = ![12, 4] := funext (Fin.forall_fin_two.mpr (by decide +kernel))
    refine ⟨⟨?_, fun i => ?_, fun i => ?_, Fin.forall_fin_two.mpr (by decide +kernel)⟩, fun i => ?_⟩
    · rw [hA]
      exact Fin.forall_fin_two.mpr (by decide +kernel)
    all_goals
      obtain rfl : i = 0 := Subsingleton.elim (α := Fin 1) i 0
      decide +kernel
  · intro a r0 x0 hr0 hf hct hp hx0 e o o1 ho hl he ha hr fuel rv o2 hrun hown
    obtain ⟨j, s, _⟩ := hl.job ho he hr ha hf.ne'
    have hpsd : ∀ v, 0 ≤ v ⬝ᵥ (Ex.probZ.Q *ᵥ v) := fun v =>
      (mul_nonneg (by norm_num) (dot_self_nonneg v)).trans (Ex.convexZ.form v)
    obtain ⟨t, ⟨v, h1, h2⟩, h3⟩ := (C70_reference j Ex.convexZ.symm hpsd).1 _ _ hrun hown
    -- the point solves its subproblems
    have key : ∀ (r : ℚ) (w : Fin 2 → ℚ), 0 ≤ r → Ref.IsMin (Ex.probZ.ref (Ex.argsZ.bnds.rowLo ⟨2, 2, 1⟩)
        (Ex.argsZ.bnds.rowHi ⟨2, 2, 1⟩) (Ex.argsZ.bnds.boxLo ⟨2, 2, 1⟩) (Ex.argsZ.bnds.boxHi ⟨2, 2, 1⟩))
        (r • (Ex.probZ.C *ᵥ ![1, 1]) + Ex.probZ.g) w → w = ![1, 1] := by
      intro r w hr hw
      have hfw := (s.feas j.bounds hw.1).A
      have f0 := of_decide_eq_true (hfw 0).1
      have f1 := of_decide_eq_true (hfw 1).1
      have e0 : (Ex.probZ.A *ᵥ w) 0 = 3 * w 0 + w 1 := by simp [Ex.probZ, mat, Matrix.mulVec, dotProduct, Fin.sum_univ_two]
      have e1 : (Ex.probZ.A *ᵥ w) 1 = w 0 + 3 * w 1 := by simp [Ex.probZ, mat, Matrix.mulVec, dotProduct, Fin.sum_univ_two]
      rw [e0] at f0
      rw [e1] at f1
      change (4 : ℚ) ≤ _ at f0
      change (4 : ℚ) ≤ _ at f1
      have hm : Feasible Ex.probZ (Ex.argsZ.bnds.rowLo ⟨2, 2, 1⟩) (Ex.argsZ.bnds.rowHi ⟨2, 2, 1⟩)
          (Ex.argsZ.bnds.boxLo ⟨2, 2, 1⟩) (Ex.argsZ.bnds.boxHi ⟨2, 2, 1⟩) ![1, 1] := by
        have := (Ex.kktZ (g := ![0, 0]) rfl (by norm_num)).feas
        obtain ⟨r1, r2, r3, r4⟩ := Ex.rowsZ
        rw [r1, r2, r3, r4]
        exact feas_any this
      have hle := hw.2 _ hm
      have eq : ∀ z : Fin 2 → ℚ, z ⬝ᵥ (Ex.probZ.Q *ᵥ z) / 2 + (r • (Ex.probZ.C *ᵥ ![1, 1]) + Ex.probZ.g) ⬝ᵥ z =
          z 0 * z 0 + z 1 * z 1 + (r - 2) * (z 0 + z 1) := by
        intro z
        rw [Ex.QZ, Ex.CZ]
        change (∑ i : Fin 2, z i * (![2 * z 0, 2 * z 1] : Fin 2 → ℚ) i) / 2 + ∑ i : Fin 2, ((r • ![1, 1] + Ex.probZ.g : Fin 2 → ℚ) i) * z i = _
        rw [Fin.sum_univ_two, Fin.sum_univ_two]
        have g0 : Ex.probZ.g 0 = -2 := rfl
        have g1 : Ex.probZ.g 1 = -2 := rfl
        simp only [Pi.add_apply, Pi.smul_apply, g0, g1, Matrix.cons_val_zero, Matrix.cons_val_one, smul_eq_mul]
        ring
      have hle' : w 0 * w 0 + w 1 * w 1 + (r - 2) * (w 0 + w 1) ≤ 1 * 1 + 1 * 1 + (r - 2) * (1 + 1) := by
        have l1 := eq w
        have l2 := eq ![1, 1]
        change _ ≤ _ at hle
        refine (le_of_eq l1.symm).trans (hle.trans (le_of_eq l2))
      have hsum : 0 ≤ r * (w 0 + w 1 - 2) := mul_nonneg hr (by linarith)
      have s0 := mul_self_nonneg (w 0 - 1)
      have s1 := mul_self_nonneg (w 1 - 1)
      refine funext (Fin.forall_fin_two.mpr ⟨?_, ?_⟩)
      · have : w 0 - 1 = 0 := mul_self_eq_zero.mp (le_antisymm (by nlinarith) s0)
        change w 0 = 1
        linarith
      · have : w 1 - 1 = 0 := mul_self_eq_zero.mp (le_antisymm (by nlinarith) s1)
        change w 1 = 1
        linarith
    have hfirst : Ref.first (Ex.probZ.ref (Ex.argsZ.bnds.rowLo ⟨2, 2, 1⟩) (Ex.argsZ.bnds.rowHi ⟨2, 2, 1⟩)
        (Ex.argsZ.bnds.boxLo ⟨2, 2, 1⟩) (Ex.argsZ.bnds.boxHi ⟨2, 2, 1⟩)) a r0 x0 = (0 : ℚ) • (Ex.probZ.C *ᵥ ![1, 1]) + Ex.probZ.g := by
      rw [zero_smul, zero_add]
      rcases hx0 with h | h
      · rw [Ref.first, if_pos h]; rfl
      · rw [Ref.first, h, Matrix.mulVec_zero, smul_zero, zero_add, ite_self]; rfl
    rw [hfirst] at h1
    have hv := key 0 v (le_refl _) h1
    subst hv
    have hg : Ex.probZ.gPhi = 0 := funext (Fin.forall_fin_two.mpr (by decide +kernel))
    have hphi : Ex.probZ.phi ![1, 1] = 1 := by decide +kernel
    obtain ⟨k1, k2⟩ := Ref.C85_stays (x := ![1, 1]) hg key hf.le hp (by change _ ≤ Ex.probZ.phi ![1, 1]; rw [hphi]; exact hct)
      (by simp [Ref.move, Ref.start]) (by exact hr0) h2
    refine ⟨k1, ?_⟩
    rw [h3.x]
    exact congrArg (fun z => some (ev z)) k2
  · obtain ⟨o1, o2, h1, h2, _⟩ := Ex.lookI_inv Ex.lookZ
    exact ⟨_, _, o1, o2, fresh_new _ (by decide) (by decide), Or.inl ⟨_, Ex.argsZ_are, rfl, h1⟩, Ex.exactZ, h2,
      by refine ⟨?_, ?_, ?_, ?_, ?_, ?_, ?_, ?_, ?_, rfl⟩ <;> decide +kernel⟩

end LCQ
