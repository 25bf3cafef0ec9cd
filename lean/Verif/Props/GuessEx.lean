import Verif.Props.Guess
import Verif.Props.IndependentEx

/-!
# C84: examples, and a run that leaves a global solution for a worse point
-/

set_option linter.unusedSectionVars false

namespace LCQ
open Scalar Ext
open scoped Matrix

namespace Ex

/-- `min (x-2)² + (y-8/5)²` subject to `0 ≤ x ⟂ y ≥ 0`, `x ≤ 1` -/
abbrev probG := prob [2, 0, 0, 2] [-4, -16/5] [0] [0]

/-- solves its subproblems -/
def ansG (a b : ℚ) : List ℚ × List ℚ × List ℚ :=
  ([min 1 (max 0 (-a/2)), max 0 (-b/2)], [max 0 (2 * min 1 (max 0 (-a/2)) + a), 2 * max 0 (-b/2) + b],
    [min 0 (2 * min 1 (max 0 (-a/2)) + a), 0])

/-- its arguments -/
def argsG (x0 : Option (List (Ext ℚ))) := argsOf [2, 0, 0, 2] [-4, -16/5] [0] [0] none (some [fin 1, pinf]) x0

/-- options: first subproblem without penalty term -/
def optsG : Options (Ext ℚ) := { opts5L with zeroFirst := true }

/-- the same, for the reference algorithm -/
def parG : Ref.Par ℚ := { parIn with zeroFirst := true }

theorem parG_of (ans : ℚ → ℚ → List ℚ × List ℚ × List ℚ) : parG.Of (solver ans) optsG := by
  refine ⟨?_, ?_, ?_, ?_, ?_, ?_, ?_, ?_, ?_, rfl⟩ <;> decide +kernel

theorem lookG1 : lookI (solver ansG) (loadDense (solver ansG) (Obj.new optsG 2 0 1) (argsG (some (emb [1, 0])))) =
    some (.successfulReturn, .successfulReturn, some (emb [0, 8/5])) := by
  decide +kernel

theorem lookG2 : lookI (solver ansG) (loadDense (solver ansG) (Obj.new optsG 2 0 1) (argsG none)) =
    some (.successfulReturn, .successfulReturn, some (emb [0, 8/5])) := by
  decide +kernel

theorem lookG3 : lookI (solver ansG) (loadDense (solver ansG) (Obj.new opts5L 2 0 1) (argsG (some (emb [1, 0])))) =
    some (.successfulReturn, .successfulReturn, some (emb [1, 0])) := by
  decide +kernel

theorem argsG_are : (argsG (some (emb [1, 0]))).Are dim probG ![1, 0] :=
  argsOf_are rfl rfl rfl rfl (by rintro v ⟨⟩) (by rintro v ⟨⟩; rfl) (Or.inr ⟨[1, 0], rfl, by decide, by decide +kernel⟩)

theorem argsG_are' : (argsG none).Are dim probG 0 :=
  argsOf_are rfl rfl rfl rfl (by rintro v ⟨⟩) (by rintro v ⟨⟩; rfl) (Or.inl ⟨rfl, rfl⟩)

theorem exactG : ExactOn (solver ansG) dim (IsSub probG ![fin 0, fin 0] (fun _ => pinf) (fun _ => ninf) ![fin 1, pinf]) := by
  apply solver_exact
  intro g
  obtain ⟨k1, k2, k3⟩ := max_kkt (g 1)
  refine ⟨![min 1 (max 0 (-g 0 / 2)), max 0 (-g 1 / 2)], ![max 0 (2 * min 1 (max 0 (-g 0 / 2)) + g 0), 2 * max 0 (-g 1 / 2) + g 1],
    ![min 0 (2 * min 1 (max 0 (-g 0 / 2)) + g 0), 0], rfl, ?_⟩
  have c0 : 0 ≤ min 1 (max 0 (-g 0 / 2)) := le_min one_pos.le (le_max_left _ _)
  have c1 : min 1 (max 0 (-g 0 / 2)) ≤ 1 := min_le_left _ _
  have c2 : 0 < 2 * min 1 (max 0 (-g 0 / 2)) + g 0 → min 1 (max 0 (-g 0 / 2)) = 0 := by
    intro h
    rcases min_choice 1 (max 0 (-g 0 / 2)) with h1 | h1 <;> rw [h1] at h ⊢
    · have := min_eq_left_iff.mp h1
      rcases max_choice 0 (-g 0 / 2) with h2 | h2 <;> rw [h2] at this <;> linarith
    · rcases max_choice 0 (-g 0 / 2) with h2 | h2 <;> rw [h2] at h ⊢
      linarith
  have c3 : 2 * min 1 (max 0 (-g 0 / 2)) + g 0 < 0 → min 1 (max 0 (-g 0 / 2)) = 1 := by
    intro h
    rcases min_choice 1 (max 0 (-g 0 / 2)) with h1 | h1
    · exact h1
    · rw [h1] at h
      have := le_max_right 0 (-g 0 / 2)
      linarith
  generalize min 1 (max 0 (-g 0 / 2)) = a at *
  generalize max 0 (-g 1 / 2) = b at *
  refine kkt_of (Fin.forall_fin_two.mpr ⟨decide_eq_true c0, decide_eq_true k1⟩) (fun i => rfl) (fun i => rfl)
    (Fin.forall_fin_two.mpr ⟨decide_eq_true c1, rfl⟩) (Fin.forall_fin_two.mpr ⟨?_, ?_⟩) (Fin.forall_fin_two.mpr ⟨fun h => ?_, fun h => ?_⟩)
    (Fin.forall_fin_two.mpr ⟨fun h => ?_, fun h => ?_⟩) (Fin.forall_fin_two.mpr ⟨fun h => ?_, fun h => ?_⟩)
    (Fin.forall_fin_two.mpr ⟨fun h => ?_, fun h => ?_⟩)
  · change 2 * a + g 0 = max 0 (2 * a + g 0) + min 0 (2 * a + g 0)
    rw [max_add_min, zero_add]
  · change 2 * b + g 1 = 2 * b + g 1 + 0
    rw [add_zero]
  · change 0 < max 0 (2 * a + g 0) at h
    rw [lt_max_iff] at h
    exact congrArg fin (c2 (h.resolve_left (lt_irrefl _))).symm
  · change 0 < 2 * b + g 1 at h
    exact congrArg fin (k3 h)
  · change max 0 (2 * a + g 0) < 0 at h
    exact absurd h (not_lt.mpr (le_max_left _ _))
  · change 2 * b + g 1 < 0 at h
    exact absurd h (not_lt.mpr (by linarith))
  · change 0 < min 0 (2 * a + g 0) at h
    exact absurd h (not_lt.mpr (min_le_left _ _))
  · exact absurd h (lt_irrefl _)
  · change min 0 (2 * a + g 0) < 0 at h
    rw [min_lt_iff] at h
    exact congrArg fin (c3 (h.resolve_left (lt_irrefl _))).symm
  · exact absurd h (lt_irrefl _)

theorem rowsG (x0 : Option (List (Ext ℚ))) : (argsG x0).bnds.rowLo dim = ![fin 0, fin 0] ∧ (argsG x0).bnds.rowHi dim = (fun _ => pinf) ∧
    (argsG x0).bnds.boxLo dim = (fun _ => ninf) ∧ (argsG x0).bnds.boxHi dim = ![fin 1, pinf] := by
  change (argsG none).bnds.rowLo dim = ![fin 0, fin 0] ∧ (argsG none).bnds.rowHi dim = (fun _ => pinf) ∧
    (argsG none).bnds.boxLo dim = (fun _ => ninf) ∧ (argsG none).bnds.boxHi dim = ![fin 1, pinf]
  exact ⟨funext (Fin.forall_fin_two.mpr (by decide +kernel)), funext (Fin.forall_fin_two.mpr (by decide +kernel)),
    funext (Fin.forall_fin_two.mpr (by decide +kernel)), funext (Fin.forall_fin_two.mpr (by decide +kernel))⟩

theorem exactG' (x0 : Option (List (Ext ℚ))) : SolvesExactly (solver ansG) dim probG (argsG x0).bnds := by
  obtain ⟨e1, e2, e3, e4⟩ := rowsG x0
  refine ⟨solver_fin _, ?_⟩
  rw [e1, e2, e3, e4]
  exact exactG

theorem objG (x : Fin 2 → ℚ) : probG.obj x = -4 * x 0 - 16 / 5 * x 1 + x 0 * x 0 + x 1 * x 1 := by
  change ∑ i : Fin 2, probG.g i * x i + (∑ i : Fin 2, x i * (probG.Q *ᵥ x) i) / 2 = _
  rw [Fin.sum_univ_two, Fin.sum_univ_two, prob_Q, prob_Q]
  simp [prob, vec]
  ring

theorem pdG (v : Fin 2 → ℚ) (hv : v ≠ 0) : 0 < v ⬝ᵥ (probG.Q *ᵥ v) := by
  have hs : v ⬝ᵥ (probG.Q *ᵥ v) = 2 * (v 0 * v 0 + v 1 * v 1) := by
    change ∑ i : Fin 2, v i * (probG.Q *ᵥ v) i = _
    rw [Fin.sum_univ_two, prob_Q, prob_Q]
    ring
  rw [hs]
  have h0 := mul_self_nonneg (v 0)
  have h1 := mul_self_nonneg (v 1)
  by_contra h
  refine hv (funext (Fin.forall_fin_two.mpr ⟨?_, ?_⟩))
  · exact mul_self_eq_zero.mp (le_antisymm (by linarith) h0)
  · exact mul_self_eq_zero.mp (le_antisymm (by linarith) h1)

theorem sidesG (x : Fin 2 → ℚ) : (probG.L *ᵥ x - probG.lbL) 0 = x 0 ∧ (probG.R *ᵥ x - probG.lbR) 0 = x 1 := by
  constructor <;> simp [prob, mat, vec, Matrix.mulVec, dotProduct, Fin.sum_univ_two]

theorem solvesG {x0 : Option (List (Ext ℚ))} {x : Fin 2 → ℚ} (h : (argsG x0).bnds.Solves probG x) :
    0 ≤ x 0 ∧ x 0 ≤ 1 ∧ 0 ≤ x 1 ∧ (x 0 = 0 ∨ x 1 = 0) := by
  obtain ⟨s1, s2⟩ := sidesG x
  have h1 := (h.feas.L 0).1
  have h2 := (h.feas.R 0).1
  have h3 := (h.feas.box 0).2
  have h4 := h.compl 0
  rw [s1, s2] at h4
  have e1 : (probG.L *ᵥ x) 0 = x 0 := by simp [prob, mat, Matrix.mulVec, dotProduct, Fin.sum_univ_two]
  have e2 : (probG.R *ᵥ x) 0 = x 1 := by simp [prob, mat, Matrix.mulVec, dotProduct, Fin.sum_univ_two]
  rw [e1] at h1
  rw [e2] at h2
  exact ⟨of_decide_eq_true h1, of_decide_eq_true h3, of_decide_eq_true h2, h4⟩

theorem inG (x0 : Option (List (Ext ℚ))) {x : Fin 2 → ℚ} (h1 : 0 ≤ x 0) (h2 : x 0 ≤ 1) (h3 : 0 ≤ x 1) (h4 : x 0 = 0 ∨ x 1 = 0) :
    (argsG x0).bnds.Solves probG x := by
  obtain ⟨s1, s2⟩ := sidesG x
  have e1 : (probG.L *ᵥ x) 0 = x 0 := by simp [prob, mat, Matrix.mulVec, dotProduct, Fin.sum_univ_two]
  have e2 : (probG.R *ᵥ x) 0 = x 1 := by simp [prob, mat, Matrix.mulVec, dotProduct, Fin.sum_univ_two]
  refine ⟨⟨fun i => i.elim0, fun i => ?_, fun i => ?_, Fin.forall_fin_two.mpr ⟨⟨rfl, decide_eq_true h2⟩, rfl, rfl⟩⟩, fun i => ?_⟩
  · obtain rfl : i = 0 := Subsingleton.elim (α := Fin 1) i 0
    rw [e1]
    exact ⟨decide_eq_true h1, rfl⟩
  · obtain rfl : i = 0 := Subsingleton.elim (α := Fin 1) i 0
    rw [e2]
    exact ⟨decide_eq_true h3, rfl⟩
  · obtain rfl : i = 0 := Subsingleton.elim (α := Fin 1) i 0
    rw [s1, s2]
    exact h4

end Ex

/-- C84: a global solution given as initial guess may be left for a worse point, if the first subproblem is solved without
penalty term: the run is successful and returns a point that satisfies all constraints and has a larger objective.  With
the other choice of the first subproblem, the run of the same problem from the same initial guess returns the solution.
All assumptions of `C84_loads` and `C84_guess` hold, so these are not contradictory. -/
theorem C84_worse : ∃ (e : Env (Ext ℚ)) (o o1 o2 o' o1' o2' : Obj (Ext ℚ)) (P : Prob ℚ ⟨2, 0, 1⟩) (x0 x : Fin 2 → ℚ) (r0 : ℚ)
    (a : Ref.Par ℚ) (b : Bnds (Ext ℚ)) (fuel : Nat), a.zeroFirst = true ∧ Fresh o ⟨2, 0, 1⟩ ∧ Fresh o' ⟨2, 0, 1⟩ ∧
    Loads e o o1 ⟨2, 0, 1⟩ P x0 b ∧ Loads e o' o1' ⟨2, 0, 1⟩ P x0 b ∧ SolvesExactly e ⟨2, 0, 1⟩ P b ∧
    a.Of e o.d.opts ∧ Ref.Par.Of { a with zeroFirst := false } e o'.d.opts ∧ a.factor ≠ 0 ∧ 0 < a.statTol ∧ 0 < a.complTol ∧
    o.d.opts.rho0 = fin r0 ∧ o'.d.opts.rho0 = fin r0 ∧ P.Qᵀ = P.Q ∧ (∀ v, v ≠ 0 → 0 < v ⬝ᵥ (P.Q *ᵥ v)) ∧ P.gPhi = 0 ∧
    b.ubL = none ∧ b.ubR = none ∧
    runSolver e fuel o1 = .ok (some (.successfulReturn, o2)) ∧ o2.s.xk = some (ev x) ∧
    runSolver e fuel o1' = .ok (some (.successfulReturn, o2')) ∧ o2'.s.xk = some (ev x0) ∧
    b.Solves P x0 ∧ (∀ y, b.Solves P y → P.obj x0 ≤ P.obj y) ∧ b.Solves P x ∧ P.obj x0 < P.obj x := by
  obtain ⟨o1, o2, h1, h2, h3⟩ := Ex.lookI_inv Ex.lookG1
  obtain ⟨o1', o2', h4, h5, h6⟩ := Ex.lookI_inv Ex.lookG3
  refine ⟨_, Obj.new Ex.optsG 2 0 1, o1, o2, Obj.new Ex.opts5L 2 0 1, o1', o2', Ex.probG, ![1, 0], ![0, 8/5], 4000, Ex.parG, _, 20, rfl,
    fresh_new _ (by decide) (by decide), fresh_new _ (by decide) (by decide), Or.inl ⟨_, Ex.argsG_are, rfl, h1⟩,
    Or.inl ⟨_, Ex.argsG_are, rfl, h4⟩, Ex.exactG' _, Ex.parG_of _, Ex.parIn_of _, by decide +kernel, by decide +kernel, by decide +kernel,
    by decide +kernel, by decide +kernel, (Ex.prob_psd (by decide)).1, Ex.pdG, ?_, rfl, rfl, h2, h3, h5, h6, ?_, fun y hy => ?_, ?_, ?_⟩
  · exact funext (Fin.forall_fin_two.mpr (by decide +kernel))
  · exact Ex.inG _ (by decide +kernel) (by decide +kernel) (by decide +kernel) (by decide +kernel)
  · obtain ⟨k1, k2, k3, k4⟩ := Ex.solvesG hy
    rw [Ex.objG, Ex.objG]
    change -4 * 1 - 16 / 5 * 0 + 1 * 1 + 0 * 0 ≤ _
    rcases k4 with k4 | k4 <;> rw [k4]
    · nlinarith [mul_self_nonneg (y 1 - 8 / 5)]
    · nlinarith
  · exact Ex.inG _ (by decide +kernel) (by decide +kernel) (by decide +kernel) (by decide +kernel)
  · rw [Ex.objG, Ex.objG]
    decide +kernel

/-- C84: two initial guesses, one of them not given, for which the assumptions of `C84_loads` hold -/
example : ∃ o1 o1' o2 o2', Loads (Ex.solver Ex.ansG) (Obj.new Ex.optsG 2 0 1) o1 ⟨2, 0, 1⟩ Ex.probG ![1, 0] (Ex.argsG none).bnds ∧
    Loads (Ex.solver Ex.ansG) (Obj.new Ex.optsG 2 0 1) o1' ⟨2, 0, 1⟩ Ex.probG 0 (Ex.argsG none).bnds ∧
    runSolver (Ex.solver Ex.ansG) 20 o1 = .ok (some (.successfulReturn, o2)) ∧
    runSolver (Ex.solver Ex.ansG) 20 o1' = .ok (some (.successfulReturn, o2')) ∧ SameResult o2.s o2'.s ∧
    o2.s.xk = some (emb [0, 8/5]) := by
  obtain ⟨o1, o2, h1, h2, h3⟩ := Ex.lookI_inv Ex.lookG1
  obtain ⟨o1', o2', h4, h5, h6⟩ := Ex.lookI_inv Ex.lookG2
  have hl : Loads (Ex.solver Ex.ansG) (Obj.new Ex.optsG 2 0 1) o1 ⟨2, 0, 1⟩ Ex.probG ![1, 0] (Ex.argsG none).bnds :=
    Or.inl ⟨_, Ex.argsG_are, rfl, h1⟩
  have hl' : Loads (Ex.solver Ex.ansG) (Obj.new Ex.optsG 2 0 1) o1' ⟨2, 0, 1⟩ Ex.probG 0 (Ex.argsG none).bnds :=
    Or.inl ⟨_, Ex.argsG_are', rfl, h4⟩
  refine ⟨o1, o1', o2, o2', hl, hl', h2, h5, ?_, h3⟩
  exact (C84_loads (r0 := 4000) (a := Ex.parG) rfl (fresh_new _ (by decide) (by decide)) (fresh_new _ (by decide) (by decide)) hl hl' (Ex.exactG' _) (Ex.exactG' _)
    (Ex.parG_of _) (Ex.parG_of _) (by decide +kernel) (by decide +kernel) (by decide +kernel) (Ex.prob_psd (by decide)).1 (Ex.prob_psd (by decide)).1
    Ex.pdG (fun _ => rfl) (fun _ => rfl) (fun _ => Iff.rfl) h2 h5 (Or.inl rfl) (Or.inl rfl)).2

/-- C84: the global solution of this problem is S-stationary; its multiplier of `y ≥ 0` is negative, and penalty parameters
of at least 16/5 outweigh it -/
example : Ex.probG.Strong ((Ex.argsG none).bnds.rowLo Ex.dim) ((Ex.argsG none).bnds.rowHi Ex.dim) ((Ex.argsG none).bnds.boxLo Ex.dim)
    ((Ex.argsG none).bnds.boxHi Ex.dim) ![1, 0] ![0, -16/5] ![-2, 0] ∧
    ∀ r : ℚ, Ex.probG.Outweighs r ![1, 0] ![0, -16/5] ↔ 16 / 5 ≤ r := by
  obtain ⟨e1, e2, e3, e4⟩ := Ex.rowsG none
  obtain ⟨s1, s2⟩ := Ex.sidesG ![1, 0]
  rw [e1, e2, e3, e4]
  refine ⟨⟨funext (Fin.forall_fin_two.mpr (by decide +kernel)), fun i => i.elim0, fun i => i.elim0, ?_, ?_, ?_, ?_, ?_⟩, fun r => ?_⟩
  · exact Fin.forall_fin_two.mpr (by decide +kernel)
  · exact Fin.forall_fin_two.mpr (by decide +kernel)
  · intro (i : Fin 1) h
    obtain rfl : i = 0 := Subsingleton.elim _ _
    exact absurd rfl h
  · intro (i : Fin 1) _
    obtain rfl : i = 0 := Subsingleton.elim _ _
    exact s2
  · intro (i : Fin 1) h
    obtain rfl : i = 0 := Subsingleton.elim _ _
    rw [s1] at h
    exact absurd h (by decide +kernel)
  · constructor
    · intro h
      have := (h 0).2
      rw [s1] at this
      change -(-16 / 5) ≤ r * 1 at this
      linarith
    · intro h (i : Fin 1)
      obtain rfl : i = 0 := Subsingleton.elim _ _
      rw [s1, s2]
      change -0 ≤ r * 0 ∧ -(-16 / 5) ≤ r * 1
      constructor <;> linarith

end LCQ
