import Verif.Props.UnitsShift

/-!
# Two runs that satisfy the assumptions of the theorems on C83
-/

namespace LCQ
open Scalar Ext
open scoped Matrix

namespace Ex

/-- `x = 2 y₂`, `y = -2 y₁` for the variables of `prob5L`; its objective is divided by 4, its complementarity function by 2 -/
def unitsU : Ref.Units ℚ 2 := Ref.Units.reorder (Equiv.swap 0 1) ![2, -2] 2 (1 / 4) (1 / 2)

theorem unitsU_fit : unitsU.Fit :=
  Ref.C83_reorder _ (by decide) (by decide +kernel) (by decide +kernel) (Fin.forall_fin_two.mpr ⟨by decide +kernel, by decide +kernel⟩)

theorem unitsU_T (y : Fin 2 → ℚ) : unitsU.T *ᵥ y = ![2 * y 1, -2 * y 0] := by
  funext i
  revert i
  refine Fin.forall_fin_two.mpr ⟨?_, ?_⟩
  · exact Ref.Units.reorder_T _ _ _ _ _ y 0
  · exact Ref.Units.reorder_T _ _ _ _ _ y 1

theorem unitsU_U : unitsU.U *ᵥ ![0, 1] = ![-1 / 2, 0] := by
  funext i
  revert i
  exact Fin.forall_fin_two.mpr ⟨by decide +kernel, by decide +kernel⟩

/-- `prob5L` in these variables and units -/
def probU : Prob ℚ dim where
  Q := mat 2 2 [2, 0, 0, 2]
  g := vec 2 [1, -2]
  A := 0
  L := mat 1 2 [0, 2]
  R := mat 1 2 [-1, 0]
  lbL := vec 1 [0]
  lbR := vec 1 [0]

/-- its arguments -/
def argsU : DenseArgs (Ext ℚ) where
  Q := some (emb [2, 0, 0, 2])
  g := some (emb [1, -2])
  L := some (emb [0, 2])
  R := some (emb [-1, 0])
  lbL := some (emb [0])
  lbR := some (emb [0])
  x0 := some (emb [-1 / 2, 0])

/-- its options -/
def optsU : Options (Ext ℚ) := { opts5L with
  rho0 := fin 2000
  statTol := fin (2221 / 20000000000000)
  complTol := fin (1 / 2000)
  maxRho := fin 50000000 }

/-- solves its subproblems -/
def ansU (a b : ℚ) : List ℚ × List ℚ × List ℚ :=
  ([-max 0 (a/2), max 0 (-b/2)], [(2 * max 0 (-b/2) + b) / 2, 2 * max 0 (a/2) - a], [0, 0])

theorem lookU : lookI (solverI ansU) (loadDense (solverI ansU) (Obj.new optsU 2 0 1) argsU) =
    some (.successfulReturn, .successfulReturn, some (emb [-1 / 2, 0])) := by
  decide +kernel

theorem argsU_are : argsU.Are dim probU ![-1 / 2, 0] := by
  refine ⟨⟨⟨_, rfl, by simp [emb]⟩, ⟨_, rfl, by simp [emb]⟩, ⟨_, rfl, by simp [emb]⟩, ?_, ?_, ?_, ?_, ?_, ?_, ?_, ?_, ?_, ?_, ?_, ?_⟩,
    ⟨_, rfl, by simp, rfl⟩, ⟨_, rfl, by simp, rfl⟩, Or.inl ⟨rfl, rfl⟩, ⟨_, rfl, by simp, rfl⟩,
    ⟨_, rfl, by simp, rfl⟩, Or.inr ⟨⟨_, rfl, by simp, rfl⟩, _, rfl, by simp, rfl⟩,
    Or.inr ⟨[-1 / 2, 0], rfl, by decide, by decide +kernel⟩⟩ <;>
    (rintro v ⟨⟩ <;> simp [emb])

theorem AAu (x : Fin 2 → ℚ) : probU.AA *ᵥ x = ![2 * x 1, -x 0] := by
  ext i
  change ∑ j : Fin 2, probU.AA i j * x j = _
  rw [Fin.sum_univ_two]
  revert i
  change ∀ i : Fin 2, _
  intro i
  fin_cases i <;> simp [probU, Prob.AA, stackRows, mat]

theorem AAu' (z : Fin 2 → ℚ) : probU.AAᵀ *ᵥ z = ![-z 1, 2 * z 0] := by
  ext i
  change ∑ j : Fin 2, probU.AA j i * z j = _
  rw [Fin.sum_univ_two]
  revert i
  change ∀ i : Fin 2, _
  intro i
  fin_cases i <;> simp [probU, Prob.AA, stackRows, mat]

theorem Qu (x : Fin 2 → ℚ) : probU.Q *ᵥ x = ![2 * x 0, 2 * x 1] := by
  ext i
  change ∑ j : Fin 2, probU.Q i j * x j = _
  rw [Fin.sum_univ_two]
  revert i
  change ∀ i : Fin 2, _
  intro i
  fin_cases i <;> simp [probU, mat]

theorem exactU : ExactOn (solverI ansU) dim (IsSub probU (fun _ => fin 0) (fun _ => pinf) (fun _ => ninf) (fun _ => pinf)) := by
  apply solverI_exact
  intro g
  obtain ⟨h1, h2, h3⟩ := max_kkt (-g 0)
  obtain ⟨k1, k2, k3⟩ := max_kkt (g 1)
  rw [neg_neg] at h1 h2 h3
  refine ⟨![-max 0 (g 0 / 2), max 0 (-g 1 / 2)], ![(2 * max 0 (-g 1 / 2) + g 1) / 2, 2 * max 0 (g 0 / 2) - g 0], rfl, ?_⟩
  generalize max 0 (g 0 / 2) = a at *
  generalize max 0 (-g 1 / 2) = b at *
  refine ⟨⟨fun i => ?_, fun i => rfl, fun i => rfl, fun i => rfl⟩, ?_, fun i => ?_, fun i => ?_,
    fun i h => absurd h (lt_irrefl _), fun i h => absurd h (lt_irrefl _)⟩
  · change (fin 0 <=. fin ((probU.AA *ᵥ ![-a, b]) i)) = true
    rw [AAu]
    revert i
    refine Fin.forall_fin_two.mpr ⟨decide_eq_true ?_, decide_eq_true ?_⟩
    · simpa using k1
    · simpa using h1
  · change probU.Q *ᵥ ![-a, b] + g = probU.AAᵀ *ᵥ _ + 0
    rw [AAu', Qu, add_zero]
    ext i
    revert i
    refine Fin.forall_fin_two.mpr ⟨?_, ?_⟩ <;> simp <;> ring
  · change _ → fin 0 = fin ((probU.AA *ᵥ ![-a, b]) i)
    rw [AAu]
    revert i
    refine Fin.forall_fin_two.mpr ⟨fun h => congrArg fin ?_, fun h => congrArg fin ?_⟩
    · have h : 0 < (2 * b + g 1) / 2 := h
      have := k3 (by linarith)
      simp [← this]
    · have h : 0 < 2 * a - g 0 := h
      have := h3 (by linarith)
      simp [← this]
  · revert i
    refine Fin.forall_fin_two.mpr ⟨fun h => absurd h (not_lt.mpr ?_), fun h => absurd h (not_lt.mpr ?_)⟩
    · change 0 ≤ (2 * b + g 1) / 2
      linarith
    · change 0 ≤ 2 * a - g 0
      linarith

theorem objU (y : Fin 2 → ℚ) : probU.obj y = unitsU.c * prob5L.obj (unitsU.T *ᵥ y) := by
  rw [unitsU_T]
  change ∑ i : Fin 2, probU.g i * y i + (∑ i : Fin 2, y i * (probU.Q *ᵥ y) i) / 2 = 1 / 4 * (∑ i : Fin 2, prob5L.g i * ![2 * y 1, -2 * y 0] i +
    (∑ i : Fin 2, ![2 * y 1, -2 * y 0] i * (prob5L.Q *ᵥ ![2 * y 1, -2 * y 0]) i) / 2)
  rw [Fin.sum_univ_two, Fin.sum_univ_two, Fin.sum_univ_two, Fin.sum_univ_two, prob_Q, prob_Q, Qu]
  simp [probU, prob, vec]
  ring

theorem phiU (y : Fin 2 → ℚ) : probU.phi y = unitsU.w * prob5L.phi (unitsU.T *ᵥ y) := by
  rw [unitsU_T]
  simp [Prob.phi, probU, prob, unitsU, Ref.Units.reorder, vec, mat, dotProduct, Matrix.mulVec, Fin.sum_univ_two]
  ring

theorem feasU (y : Fin 2 → ℚ) : argsU.bnds.Feas probU y ↔ args5L.bnds.Feas prob5L (unitsU.T *ᵥ y) := by
  rw [unitsU_T]
  refine feasLow.trans (Iff.trans ?_ feasLow.symm)
  have h1 : (probU.L *ᵥ y) (0 : Fin 1) = 2 * y 1 := by
    simp [probU, mat, dotProduct, Matrix.mulVec, Fin.sum_univ_two]
  have h2 : (probU.R *ᵥ y) (0 : Fin 1) = -y 0 := by
    simp [probU, mat, dotProduct, Matrix.mulVec, Fin.sum_univ_two]
  have h3 : (prob5L.L *ᵥ ![2 * y 1, -2 * y 0]) (0 : Fin 1) = 2 * y 1 := by
    simp [prob, mat, dotProduct, Matrix.mulVec, Fin.sum_univ_two]
  have h4 : (prob5L.R *ᵥ ![2 * y 1, -2 * y 0]) (0 : Fin 1) = -2 * y 0 := by
    simp [prob, mat, dotProduct, Matrix.mulVec, Fin.sum_univ_two]
  rw [h1, h2, h3, h4]
  constructor <;> rintro ⟨a, b⟩ <;> exact ⟨a, by linarith⟩

/-- The assumptions of `C83_loads` are met by two successful runs. -/
example : ∃ o o' o1 o1' o2 o2', Fresh o dim ∧ Fresh o' dim ∧ Loads (solver ans4) o o1 dim prob5L ![0, 1] args5L.bnds ∧
    Loads (solverI ansU) o' o1' dim probU (unitsU.U *ᵥ ![0, 1]) argsU.bnds ∧ SolvesExactly (solver ans4) dim prob5L args5L.bnds ∧
    SolvesExactly (solverI ansU) dim probU argsU.bnds ∧ parIn.Of (solver ans4) o.d.opts ∧
    (unitsU.par parIn).Of (solverI ansU) o'.d.opts ∧ runSolver (solver ans4) 20 o1 = .ok (some (.successfulReturn, o2)) ∧
    runSolver (solverI ansU) 20 o1' = .ok (some (.successfulReturn, o2')) ∧ Converted unitsU o2.s o2'.s := by
  have hx : ArgOpt (some (emb [0, 1])) 2 (![0, 1] : Fin 2 → ℚ) := Or.inr ⟨[0, 1], rfl, by decide, by decide +kernel⟩
  obtain ⟨o1, o2, h1, h2, h3⟩ := loads_of (a := args5L) (v := ![0, 1]) (argsOf_are rfl rfl rfl rfl (by rintro v ⟨⟩)
    (by rintro v ⟨⟩) hx) load5L look5L
  have hf : Fresh (Obj.new opts5L 2 0 1) dim := fresh_new _ (by decide) (by decide)
  have hf' : Fresh (Obj.new optsU 2 0 1) dim := fresh_new _ (by decide) (by decide)
  obtain ⟨o1', o2', k1, k2, k3⟩ := lookI_inv lookU
  have k1 : Loads (solverI ansU) (Obj.new optsU 2 0 1) o1' dim probU (unitsU.U *ᵥ ![0, 1]) argsU.bnds := by
    rw [unitsU_U]
    exact Or.inl ⟨argsU, argsU_are, rfl, k1⟩
  have hE : SolvesExactly (solverI ansU) dim probU argsU.bnds := by
    have e1 : argsU.bnds.rowLo dim = fun _ => fin 0 := funext (Fin.forall_fin_two.mpr (by decide +kernel))
    have e2 : argsU.bnds.rowHi dim = fun _ => pinf := funext (Fin.forall_fin_two.mpr (by decide +kernel))
    have e3 : argsU.bnds.boxLo dim = fun _ => ninf := funext (Fin.forall_fin_two.mpr (by decide +kernel))
    have e4 : argsU.bnds.boxHi dim = fun _ => pinf := funext (Fin.forall_fin_two.mpr (by decide +kernel))
    refine ⟨solverI_fin _, ?_⟩
    rw [e1, e2, e3, e4]
    exact exactU
  have hp : (unitsU.par parIn).Of (solverI ansU) (Obj.new optsU 2 0 1).d.opts := by
    refine ⟨?_, ?_, ?_, ?_, ?_, ?_, ?_, ?_, ?_, rfl⟩ <;> decide +kernel
  have hQ : probU.Qᵀ = probU.Q := by
    ext i j
    revert i j
    exact Fin.forall_fin_two.mpr ⟨Fin.forall_fin_two.mpr ⟨rfl, rfl⟩, Fin.forall_fin_two.mpr ⟨rfl, rfl⟩⟩
  refine ⟨_, _, o1, o1', o2, o2', hf, hf', h1, k1, exact5L, hE, parIn_of _, hp, h2, k2, ?_⟩
  exact (C83_loads unitsU_fit (Or.inl rfl) hf hf' h1 k1 exact5L hE (parIn_of _) hp (r0 := 4000) (by decide +kernel)
    (by decide +kernel) (by decide +kernel) (prob_psd (by decide)).1 hQ prob5L_pd objU phiU feasU h2 k2 (Or.inl rfl) (Or.inl rfl)).2

end Ex

end LCQ
