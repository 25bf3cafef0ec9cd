import Verif.Props.Inexact
import Verif.Props.SuccessEx

/-!
# C86: examples, and a successful run with a violated complementarity constraint
-/

set_option linter.unusedSectionVars false

namespace LCQ
open Scalar Ext
open scoped Matrix

namespace Ex

/-- twice the identity -/
def sQH : CSC ℚ := { m := 4, n := 4, nzmax := 4, p := [0, 1, 2, 3, 4], i := [0, 1, 2, 3], x := [2, 2, 2, 2] }
/-- first and third variable -/
def sLH : CSC ℚ := { m := 2, n := 4, nzmax := 2, p := [0, 1, 1, 2, 2], i := [0, 1], x := [1, 1] }
/-- second and fourth variable -/
def sRH : CSC ℚ := { m := 2, n := 4, nzmax := 2, p := [0, 0, 1, 1, 2], i := [0, 1], x := [1, 1] }

/-- four variables, two pairs -/
def probH : Prob ℚ ⟨4, 0, 2⟩ where
  Q := mat 4 4 [2, 0, 0, 0, 0, 2, 0, 0, 0, 0, 2, 0, 0, 0, 0, 2]
  g := vec 4 [-201 / 100, -201 / 100, -199999999 / 100000, -4999 / 500]
  A := 0
  L := mat 2 4 [1, 0, 0, 0, 0, 0, 1, 0]
  R := mat 2 4 [0, 1, 0, 0, 0, 0, 0, 1]
  lbL := 0
  lbR := 0

/-- its arguments; the initial guess satisfies the bounds -/
def argsH : SparseArgs (Ext ℚ) where
  Q := some sQH.emb
  g := some (emb [-201 / 100, -201 / 100, -199999999 / 100000, -4999 / 500])
  L := some sLH.emb
  R := some sRH.emb
  x0 := some (emb [1, 1, 1000, 0])

/-- default options, except that OSQP is chosen, the steps are not perturbed and the first subproblem has a penalty term -/
def optsH : Options (Ext ℚ) := { Options.default 0 0 with
  perturb := false
  zeroFirst := false
  qpSolver := 2 }

/-- solves the first subproblem up to 1/1000 -/
def solverH : Env (Ext ℚ) := envOf fun _ q =>
  if q.g = emb [-2, -2, -199999999 / 100000, 1 / 500] then good [1, 1, 1000, -1 / 1000] [] else { good [] [] with ret := 1 }

theorem solverH_fin : FinAns solverH := by
  intro k q _ i
  simp only [solverH, envOf]
  split <;> exact ⟨⟨_, rfl⟩, ⟨_, rfl⟩⟩

theorem lookH : lookI solverH (loadSparse solverH (Obj.new optsH 4 0 2) argsH) =
    some (.successfulReturn, .successfulReturn, some (emb [1, 1, 1000, -1 / 1000])) := by
  decide +kernel

theorem argsH_are : argsH.Are ⟨4, 0, 2⟩ probH ![1, 1, 1000, 0] where
  fits := by
    have hQ : sQH.emb.Is 4 4 := ⟨⟨⟨by decide, by decide, by decide, by decide, by decide, by decide⟩, by decide⟩, rfl, rfl⟩
    have hL : sLH.emb.Is 2 4 := ⟨⟨⟨by decide, by decide, by decide, by decide, by decide, by decide⟩, by decide⟩, rfl, rfl⟩
    have hR : sRH.emb.Is 2 4 := ⟨⟨⟨by decide, by decide, by decide, by decide, by decide, by decide⟩, by decide⟩, rfl, rfl⟩
    refine ⟨⟨_, rfl, hQ⟩, ⟨_, rfl, hL⟩, ⟨_, rfl, hR⟩, ?_, ?_, ?_, ?_, ?_, ?_, ?_, ?_, ?_, ?_, ?_, ?_⟩
    all_goals (rintro v ⟨⟩ <;> rfl)
  Q := ⟨sQH, rfl, den_ext (by decide +kernel)⟩
  g := ⟨_, rfl, by simp, rfl⟩
  A := Or.inl ⟨rfl, rfl⟩
  L := ⟨sLH, rfl, sorted_of_short _ (by decide), den_ext (by decide +kernel)⟩
  R := ⟨sRH, rfl, sorted_of_short _ (by decide), den_ext (by decide +kernel)⟩
  low := Or.inl ⟨rfl, rfl, rfl, rfl⟩
  x0 := Or.inr ⟨[1, 1, 1000, 0], rfl, by decide, by decide +kernel⟩
  tiny := by
    have h : ∀ i j : Fin 4, (probH.C i j : ℚ) = 0 ∨ (probH.C i j : ℚ) = 1 := by
      intro i j; fin_cases i <;> fin_cases j <;> decide +kernel
    intro i j
    rcases h i j with h | h
    · exact Or.inl h
    · right; rw [h]; norm_num

theorem AAH (x : Fin 4 → ℚ) : probH.AA *ᵥ x = ![x 0, x 2, x 1, x 3] := by
  ext i
  change ∑ j : Fin 4, probH.AA i j * x j = _
  rw [Fin.sum_univ_four]
  revert i
  change ∀ i : Fin 4, _
  intro i
  fin_cases i <;> simp [probH, Prob.AA, stackRows, mat]

theorem AAH' (z : Fin 4 → ℚ) : probH.AAᵀ *ᵥ z = ![z 0, z 2, z 1, z 3] := by
  ext i
  change ∑ j : Fin 4, probH.AA j i * z j = _
  rw [Fin.sum_univ_four]
  revert i
  change ∀ i : Fin 4, _
  intro i
  fin_cases i <;> simp [probH, Prob.AA, stackRows, mat]

theorem QH (x : Fin 4 → ℚ) : probH.Q *ᵥ x = ![2 * x 0, 2 * x 1, 2 * x 2, 2 * x 3] := by
  ext i
  change ∑ j : Fin 4, probH.Q i j * x j = _
  rw [Fin.sum_univ_four]
  revert i
  change ∀ i : Fin 4, _
  intro i
  fin_cases i <;> simp [probH, mat]

theorem four {p : Fin 4 → Prop} (h0 : p 0) (h1 : p 1) (h2 : p 2) (h3 : p 3) : ∀ i, p i := by
  intro i
  fin_cases i <;> assumption

theorem rowsH : argsH.bnds.rowLo ⟨4, 0, 2⟩ = (fun _ => fin 0) ∧ argsH.bnds.rowHi ⟨4, 0, 2⟩ = (fun _ => pinf) ∧
    argsH.bnds.boxLo ⟨4, 0, 2⟩ = (fun _ => ninf) ∧ argsH.bnds.boxHi ⟨4, 0, 2⟩ = (fun _ => pinf) :=
  ⟨funext (four (by decide +kernel) (by decide +kernel) (by decide +kernel) (by decide +kernel)),
    funext (four (by decide +kernel) (by decide +kernel) (by decide +kernel) (by decide +kernel)),
    funext (four (by decide +kernel) (by decide +kernel) (by decide +kernel) (by decide +kernel)),
    funext (four (by decide +kernel) (by decide +kernel) (by decide +kernel) (by decide +kernel))⟩

/-- the linear term of the subproblem that is solved -/
def gH : Fin 4 → ℚ := ![-2, -2, -199999999 / 100000, 1 / 500]

theorem nearH : (probH.subQp (fun _ => fin 0) (fun _ => pinf) (fun _ => ninf) (fun _ => pinf) gH).Near (1 / 1000)
    ![1, 1, 1000, -1 / 1000] 0 0 := by
  refine ⟨fun i => ?_, fun i => rfl, fun i => rfl, fun i => rfl, fun i h => absurd h (lt_irrefl _), fun i h => absurd h (lt_irrefl _),
    fun i h => absurd h (lt_irrefl _), fun i h => absurd h (lt_irrefl _)⟩
  change (fin 0 <=. fin ((probH.AA *ᵥ ![1, 1, 1000, -1 / 1000]) i + 1 / 1000)) = true
  rw [AAH]
  revert i
  exact four (by decide +kernel) (by decide +kernel) (by decide +kernel) (by decide +kernel)

theorem kktH : (probH.subQp (fun _ => fin 0) (fun _ => pinf) (fun _ => ninf) (fun _ => pinf) gH).Kkt
    ![1, 1, 199999999 / 200000, 0] ![0, 0, 0, 1 / 500] 0 := by
  refine ⟨⟨fun i => ?_, fun i => rfl, fun i => rfl, fun i => rfl⟩, ?_, fun i => ?_, fun i => ?_,
    fun i h => absurd h (lt_irrefl _), fun i h => absurd h (lt_irrefl _)⟩
  · change (fin 0 <=. fin ((probH.AA *ᵥ ![1, 1, 199999999 / 200000, 0]) i)) = true
    rw [AAH]
    revert i
    exact four (by decide +kernel) (by decide +kernel) (by decide +kernel) (by decide +kernel)
  · change probH.Q *ᵥ _ + gH = probH.AAᵀ *ᵥ _ + 0
    rw [AAH', QH, add_zero]
    exact funext (four (by decide +kernel) (by decide +kernel) (by decide +kernel) (by decide +kernel))
  · change _ → fin 0 = fin ((probH.AA *ᵥ ![1, 1, 199999999 / 200000, 0]) i)
    rw [AAH]
    revert i
    exact four (by decide +kernel) (by decide +kernel) (by decide +kernel) (by decide +kernel)
  · revert i
    exact four (by decide +kernel) (by decide +kernel) (by decide +kernel) (by decide +kernel)

theorem answersH {k : Nat} {q : Req (Ext ℚ)} {p : Qp ℚ ⟨4, 0, 2⟩} (hq : q.Is ⟨4, 0, 2⟩ p)
    (hp : IsSub probH (fun _ => fin 0) (fun _ => pinf) (fun _ => ninf) (fun _ => pinf) p) (hok : QpOk q.sub (solverH.qp k q)) :
    p = probH.subQp (fun _ => fin 0) (fun _ => pinf) (fun _ => ninf) (fun _ => pinf) gH ∧
      solverH.qp k q = good [1, 1, 1000, -1 / 1000] [] := by
  obtain ⟨g, rfl⟩ := hp
  have hr : (solverH.qp k q).ret = 0 := by
    cases hs : q.sub <;> rw [hs] at hok
    · exact hok
    · exact hok
    · exact hok.1
  by_cases hc : q.g = emb [-2, -2, -199999999 / 100000, 1 / 500]
  · refine ⟨?_, by simp only [solverH, envOf, if_pos hc]⟩
    have hg : ev g = ev gH := by
      rw [← (show q.g = ev g from hq.g), hc]
      rfl
    rw [ev_inj hg]
  · simp only [solverH, envOf, if_neg hc] at hr
    exact absurd hr (by decide)

theorem solvesH : SolvesTo solverH ⟨4, 0, 2⟩ probH argsH.bnds (1 / 1000) := by
  obtain ⟨e1, e2, e3, e4⟩ := rowsH
  refine ⟨solverH_fin, ?_⟩
  rw [e1, e2, e3, e4]
  intro k q p hq hp hok
  obtain ⟨h1, h2⟩ := answersH hq hp hok
  subst h1
  refine ⟨_, _, _, ?_, nearH⟩
  rw [h2]
  refine ⟨four rfl rfl rfl rfl, ?_⟩
  cases q.sub
  · exact ⟨four rfl rfl rfl rfl, four rfl rfl rfl rfl⟩
  · exact ⟨four rfl rfl rfl rfl, four rfl rfl rfl rfl⟩
  · exact ⟨four rfl rfl rfl rfl, rfl⟩

theorem convexH : StronglyConvex probH.Q 2 := by
  refine ⟨?_, by norm_num, fun v => ?_⟩
  · exact funext (four (funext (four rfl rfl rfl rfl)) (funext (four rfl rfl rfl rfl)) (funext (four rfl rfl rfl rfl))
      (funext (four rfl rfl rfl rfl)))
  · rw [QH]
    change 2 * ∑ i : Fin 4, v i * v i ≤ ∑ i : Fin 4, v i * (![2 * v 0, 2 * v 1, 2 * v 2, 2 * v 3] : Fin 4 → ℚ) i
    rw [Fin.sum_univ_four, Fin.sum_univ_four]
    change _ ≤ v 0 * (2 * v 0) + v 1 * (2 * v 1) + v 2 * (2 * v 2) + v 3 * (2 * v 3)
    linarith

/-- the assumptions of `C86_rows`, `C86_vi` and `C86_loads` hold for an OSQP run -/
example : ∃ o1 o2, Loads solverH (Obj.new optsH 4 0 2) o1 ⟨4, 0, 2⟩ probH ![1, 1, 1000, 0] argsH.bnds ∧
    runSolver solverH 20 o1 = .ok (some (.successfulReturn, o2)) ∧
    argsH.bnds.NearMin probH o2 (1 / 1000) (2221 / 10000000000000) (2221 / 10000000000000000) := by
  obtain ⟨o1, o2, h1, h2, _⟩ := lookI_inv lookH
  have hl : Loads solverH (Obj.new optsH 4 0 2) o1 ⟨4, 0, 2⟩ probH ![1, 1, 1000, 0] argsH.bnds := Or.inr ⟨_, argsH_are, rfl, h1⟩
  refine ⟨o1, o2, hl, h2, ?_⟩
  exact C86_loads hl (fresh_new _ (by decide) (by decide)) solvesH (r0 := 1 / 100) (f := 2) (by decide +kernel) (by decide +kernel)
    (by norm_num) convexH.symm (fun v => (mul_nonneg (by norm_num) (dot_self_nonneg v)).trans (convexH.form v)) rfl
    (by decide +kernel) (by decide +kernel) h2 (Or.inr (funext (four (by decide +kernel) (by decide +kernel) (by decide +kernel) (by decide +kernel))))

/-- `C86_products` is sharp: its assumptions hold for the sides `(1, 1000)` and `(1, -1/1000)` -/
example : (∀ i, -(1 / 1000 : ℚ) ≤ (![1, 1000] : Fin 2 → ℚ) i) ∧ (∀ i, -(1 / 1000 : ℚ) ≤ (![1, -1 / 1000] : Fin 2 → ℚ) i) ∧
    (![1, 1000] : Fin 2 → ℚ) ⬝ᵥ ![1, -1 / 1000] < 1 / 10 ^ 10 := by
  decide +kernel

end Ex

/-- C86: a run with default tolerances and a strongly convex objective that is successful although a complementarity constraint is
violated: both sides of the first pair of the returned point are 1.  The QP solver's answers violate the constraints by at
most 1/1000 and differ from the solutions by at most 1/1000 in each component; the violation of the lower bound of the second pair's
right side is multiplied by the left side, and this compensates the product of the first pair in the complementarity function, which is a sum of
products with signs. -/
theorem C86_hidden : ∃ (P : Prob ℚ ⟨4, 0, 2⟩) (b : Bnds (Ext ℚ)) (e : Env (Ext ℚ)) (o o1 o2 : Obj (Ext ℚ)) (x0 x : Fin 4 → ℚ),
    StronglyConvex P.Q 2 ∧ Fresh o ⟨4, 0, 2⟩ ∧ Loads e o o1 ⟨4, 0, 2⟩ P x0 b ∧ b.Feas P x0 ∧ SolvesTo e ⟨4, 0, 2⟩ P b (1 / 1000) ∧
    (∀ k q p, q.Is ⟨4, 0, 2⟩ p → IsSub P (b.rowLo ⟨4, 0, 2⟩) (b.rowHi ⟨4, 0, 2⟩) (b.boxLo ⟨4, 0, 2⟩) (b.boxHi ⟨4, 0, 2⟩) p →
      QpOk q.sub (e.qp k q) → ∃ v z w, p.Kkt v z w ∧ ∀ i : Fin 4, ∃ a, (e.qp k q).x i = fin a ∧ |a - v i| ≤ 1 / 1000) ∧
    runSolver e 20 o1 = .ok (some (.successfulReturn, o2)) ∧ o.d.opts.complTol = fin (2221 / 10000000000000000) ∧
    o.d.opts.statTol = fin (2221 / 10000000000000) ∧ o2.s.xk = some (ev x) ∧ (P.L *ᵥ x - P.lbL) 0 = 1 ∧ (P.R *ᵥ x - P.lbR) 0 = 1 := by
  obtain ⟨o1, o2, h1, h2, h3⟩ := Ex.lookI_inv Ex.lookH
  refine ⟨Ex.probH, Ex.argsH.bnds, Ex.solverH, Obj.new Ex.optsH 4 0 2, o1, o2, ![1, 1, 1000, 0], ![1, 1, 1000, -1 / 1000],
    Ex.convexH, fresh_new _ (by decide) (by decide), Or.inr ⟨_, Ex.argsH_are, rfl, h1⟩, ?_, Ex.solvesH, ?_, h2, by decide +kernel,
    by decide +kernel, h3.trans (by rfl), by decide +kernel, by decide +kernel⟩
  · refine ⟨fun i => i.elim0, Fin.forall_fin_two.mpr (by decide +kernel), Fin.forall_fin_two.mpr (by decide +kernel),
      Ex.four (by decide +kernel) (by decide +kernel) (by decide +kernel) (by decide +kernel)⟩
  · obtain ⟨e1, e2, e3, e4⟩ := Ex.rowsH
    rw [e1, e2, e3, e4]
    intro k q p hq hp hok
    obtain ⟨j1, j2⟩ := Ex.answersH hq hp hok
    subst j1
    refine ⟨_, _, _, Ex.kktH, ?_⟩
    rw [j2]
    exact Ex.four ⟨1, rfl, by decide +kernel⟩ ⟨1, rfl, by decide +kernel⟩ ⟨1000, rfl, by decide +kernel⟩
      ⟨-1 / 1000, rfl, by decide +kernel⟩

end LCQ
