import Verif.Props.Units
import Verif.Props.IndependentEx

/-!
# C83: moving the origin changes the run
-/

namespace LCQ
open Scalar Ext
open scoped Matrix

namespace Ex

/-- minimises `x² + y² + g'(x,y)` over `x ≥ 1`, `y ≥ -1` -/
def ansT (a b : ℚ) : List ℚ × List ℚ × List ℚ :=
  ([max 1 (-a/2), max (-1) (-b/2)], [2 * max 1 (-a/2) + a, 2 * max (-1) (-b/2) + b], [0, 0])

/-- `prob5L` for the variables `x + 1`, `y - 1` -/
abbrev probT := prob [2, 0, 0, 2] [-6, 0] [1] [-1]

/-- its arguments -/
def argsT := argsOf [2, 0, 0, 2] [-6, 0] [1] [-1] none none (some (emb [1, 0]))

theorem lookT5 : lookI (solver ans4) (loadDense (solver ans4) (Obj.new opts5L 2 0 1) args5L) =
    some (.successfulReturn, .successfulReturn, some (emb [0, 1])) := by decide +kernel

theorem lookT : lookI (solver ansT) (loadDense (solver ansT) (Obj.new opts5L 2 0 1) argsT) =
    some (.successfulReturn, .successfulReturn, some (emb [2003, -1])) := by decide +kernel

theorem exactT : ExactOn (solver ansT) dim (IsSub probT ![fin 1, fin (-1)] (fun _ => pinf) (fun _ => ninf) (fun _ => pinf)) := by
  apply solver_exact
  intro g
  refine ⟨![max 1 (-g 0 / 2), max (-1) (-g 1 / 2)], ![2 * max 1 (-g 0 / 2) + g 0, 2 * max (-1) (-g 1 / 2) + g 1], 0, rfl, ?_⟩
  have h1 := le_max_left 1 (-g 0 / 2)
  have h2 := le_max_right 1 (-g 0 / 2)
  have h3 := le_max_left (-1) (-g 1 / 2)
  have h4 := le_max_right (-1) (-g 1 / 2)
  have c1 : 1 = max 1 (-g 0 / 2) ∨ -g 0 / 2 = max 1 (-g 0 / 2) := by
    rcases max_choice 1 (-g 0 / 2) with h | h
    · exact Or.inl h.symm
    · exact Or.inr h.symm
  have c2 : -1 = max (-1) (-g 1 / 2) ∨ -g 1 / 2 = max (-1) (-g 1 / 2) := by
    rcases max_choice (-1) (-g 1 / 2) with h | h
    · exact Or.inl h.symm
    · exact Or.inr h.symm
  generalize max 1 (-g 0 / 2) = a at *
  generalize max (-1) (-g 1 / 2) = b at *
  refine kkt_of (Fin.forall_fin_two.mpr ⟨?_, ?_⟩) (fun i => rfl) (fun i => rfl) (fun i => rfl)
    (Fin.forall_fin_two.mpr ⟨?_, ?_⟩) (Fin.forall_fin_two.mpr ⟨fun h => ?_, fun h => ?_⟩)
    (Fin.forall_fin_two.mpr ⟨fun h => ?_, fun h => ?_⟩) (fun i h => absurd h (lt_irrefl _))
    (fun i h => absurd h (lt_irrefl _))
  · simpa using h1
  · simpa using h3
  · simp
  · simp
  · have h : 0 < 2 * a + g 0 := h
    rcases c1 with c | c
    · exact congrArg fin c
    · linarith
  · have h : 0 < 2 * b + g 1 := h
    rcases c2 with c | c
    · exact congrArg fin c
    · linarith
  · have h : 2 * a + g 0 < 0 := h
    linarith
  · have h : 2 * b + g 1 < 0 := h
    linarith

theorem exactT' : SolvesExactly (solver ansT) dim probT argsT.bnds := by
  have e1 : argsT.bnds.rowLo dim = ![fin 1, fin (-1)] := funext (Fin.forall_fin_two.mpr (by decide +kernel))
  have e2 : argsT.bnds.rowHi dim = fun _ => pinf := funext (Fin.forall_fin_two.mpr (by decide +kernel))
  have e3 : argsT.bnds.boxLo dim = fun _ => ninf := funext (Fin.forall_fin_two.mpr (by decide +kernel))
  have e4 : argsT.bnds.boxHi dim = fun _ => pinf := funext (Fin.forall_fin_two.mpr (by decide +kernel))
  refine ⟨solver_fin _, ?_⟩
  rw [e1, e2, e3, e4]
  exact exactT

theorem feasLow {P : Prob ℚ dim} {x : Fin 2 → ℚ} {a b : ℚ} :
    (Bnds.mk none none (some (emb [a])) none (some (emb [b])) none none none).Feas P x ↔
      a ≤ (P.L *ᵥ x) (0 : Fin 1) ∧ b ≤ (P.R *ᵥ x) (0 : Fin 1) := by
  constructor
  · intro h
    exact ⟨of_decide_eq_true (h.L (0 : Fin 1)).1, of_decide_eq_true (h.R (0 : Fin 1)).1⟩
  · rintro ⟨h1, h2⟩
    refine ⟨fun i => i.elim0, ?_, ?_, ?_⟩
    · change ∀ i : Fin 1, _
      intro i
      fin_cases i
      exact ⟨decide_eq_true h1, rfl⟩
    · change ∀ i : Fin 1, _
      intro i
      fin_cases i
      exact ⟨decide_eq_true h2, rfl⟩
    · exact Fin.forall_fin_two.mpr ⟨⟨rfl, rfl⟩, ⟨rfl, rfl⟩⟩

theorem lin_row (c d : ℚ) (x : Fin 2 → ℚ) : (mat 1 2 [c, d] *ᵥ x) 0 = c * x 0 + d * x 1 := by
  simp [mat, dotProduct, Matrix.mulVec, Fin.sum_univ_two]

theorem feasT (x : Fin 2 → ℚ) : argsT.bnds.Feas probT (x + ![1, -1]) ↔ args5L.bnds.Feas prob5L x := by
  refine feasLow.trans (Iff.trans ?_ feasLow.symm)
  change 1 ≤ (mat 1 2 [1, 0] *ᵥ _) 0 ∧ -1 ≤ (mat 1 2 [0, 1] *ᵥ _) 0 ↔ 0 ≤ (mat 1 2 [1, 0] *ᵥ x) 0 ∧ 0 ≤ (mat 1 2 [0, 1] *ᵥ x) 0
  rw [lin_row, lin_row, lin_row, lin_row]
  simp

theorem phiT (x : Fin 2 → ℚ) : probT.phi (x + ![1, -1]) = prob5L.phi x := by
  have h : ∀ v w : Fin 1 → ℚ, v ⬝ᵥ w = v 0 * w 0 := fun v w => by simp [dotProduct]
  refine (h _ _).trans (Eq.trans ?_ (h _ _).symm)
  change ((mat 1 2 [1, 0] *ᵥ _) 0 - 1) * ((mat 1 2 [0, 1] *ᵥ _) 0 - -1) = ((mat 1 2 [1, 0] *ᵥ x) 0 - 0) * ((mat 1 2 [0, 1] *ᵥ x) 0 - 0)
  rw [lin_row, lin_row, lin_row, lin_row]
  simp

theorem objT (x : Fin 2 → ℚ) : probT.obj (x + ![1, -1]) = prob5L.obj x + -4 := by
  have h : ∀ (g : List ℚ) (y : Fin 2 → ℚ), (prob [2, 0, 0, 2] g [1] [-1]).obj y =
      g.getD 0 0 * y 0 + g.getD 1 0 * y 1 + (y 0 * (2 * y 0) + y 1 * (2 * y 1)) / 2 := by
    intro g y
    change ∑ i : Fin 2, _ + (∑ i : Fin 2, y i * ((prob [2, 0, 0, 2] g [1] [-1]).Q *ᵥ y) i) / 2 = _
    rw [Fin.sum_univ_two, Fin.sum_univ_two, prob_Q, prob_Q]
    rfl
  refine (h [-6, 0] _).trans (Eq.trans ?_ (congrArg (· + -4) (h [-4, -2] x)).symm)
  simp
  ring

end Ex

/-- C83: moving the origin of the variables does change the run, because the linear term of the complementarity function,
which is not zero after the move, is missing before the first penalty update.  Two problems, the second one in the
variables `x + v`, with initial guesses `x0` and `x0 + v`, the same options and exactly solved subproblems; both runs are
successful, the first one in a point `x`, the second one in a point different from `x + v`. -/
theorem C83_shift : ∃ (e e' : Env (Ext ℚ)) (o o1 o1' o2 o2' : Obj (Ext ℚ)) (P P' : Prob ℚ ⟨2, 0, 1⟩) (x0 v x x' : Fin 2 → ℚ)
    (b b' : Bnds (Ext ℚ)) (c : ℚ), Fresh o ⟨2, 0, 1⟩ ∧ Loads e o o1 ⟨2, 0, 1⟩ P x0 b ∧ Loads e' o o1' ⟨2, 0, 1⟩ P' (x0 + v) b' ∧
    SolvesExactly e ⟨2, 0, 1⟩ P b ∧ SolvesExactly e' ⟨2, 0, 1⟩ P' b' ∧ P.Qᵀ = P.Q ∧ P'.Q = P.Q ∧
    (∀ v, v ≠ 0 → 0 < v ⬝ᵥ (P.Q *ᵥ v)) ∧ (∀ y, P'.obj (y + v) = P.obj y + c) ∧ (∀ y, P'.phi (y + v) = P.phi y) ∧
    (∀ y, b'.Feas P' (y + v) ↔ b.Feas P y) ∧
    runSolver e 20 o1 = .ok (some (.successfulReturn, o2)) ∧ runSolver e' 20 o1' = .ok (some (.successfulReturn, o2')) ∧
    o2.s.xk = some (ev x) ∧ o2'.s.xk = some (ev x') ∧ x' ≠ x + v := by
  obtain ⟨o1, o2, h1, h2, h3⟩ := Ex.lookI_inv Ex.lookT5
  obtain ⟨o1', o2', k1, k2, k3⟩ := Ex.lookI_inv Ex.lookT
  have hx : ArgOpt (some (emb [0, 1])) 2 (![0, 1] : Fin 2 → ℚ) := Or.inr ⟨[0, 1], rfl, by decide, by decide +kernel⟩
  have hx' : ArgOpt (some (emb [1, 0])) 2 (![0, 1] + ![1, -1] : Fin 2 → ℚ) := Or.inr ⟨[1, 0], rfl, by decide, by decide +kernel⟩
  refine ⟨_, _, _, o1, o1', o2, o2', Ex.prob5L, Ex.probT, ![0, 1], ![1, -1], ![0, 1], ![2003, -1], _, _, -4,
    fresh_new Ex.opts5L (by decide) (by decide), Or.inl ⟨_, Ex.argsOf_are rfl rfl rfl rfl (by rintro v ⟨⟩) (by rintro v ⟨⟩) hx, rfl, h1⟩,
    Or.inl ⟨_, Ex.argsOf_are rfl rfl rfl rfl (by rintro v ⟨⟩) (by rintro v ⟨⟩) hx', rfl, k1⟩, Ex.exact5L, Ex.exactT',
    (Ex.prob_psd (by decide)).1, rfl, Ex.prob5L_pd, Ex.objT, Ex.phiT, Ex.feasT, h2, k2, h3, k3, ?_⟩
  intro h
  have := congrFun h 0
  revert this
  decide +kernel

end LCQ
