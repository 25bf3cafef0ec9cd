import Verif.Props.Feasible
import Mathlib.Tactic.FinCases
import Mathlib.Tactic.NormNum

/-!
# Examples and counterexamples for C20, C21, C24 - C27, C47, C48
-/

namespace LCQ.Ex
open Scalar Ext
open scoped Matrix

/-- dimensions of the examples -/
abbrev dim : Dims := ⟨2, 0, 1⟩

/-- two variables, one complementarity pair, no further linear constraints -/
def prob (Q g lbL lbR : List ℚ) : Prob ℚ dim where
  Q := mat 2 2 Q
  g := vec 2 g
  A := 0
  L := mat 1 2 [1, 0]
  R := mat 1 2 [0, 1]
  lbL := vec 1 lbL
  lbR := vec 1 lbR

/-- arguments describing `prob` -/
def argsOf (Q g lbL lbR : List ℚ) (lb ub : Option (List (Ext ℚ))) (x0 : Option (List (Ext ℚ))) : DenseArgs (Ext ℚ) where
  Q := some (emb Q)
  g := some (emb g)
  L := some (emb [1, 0])
  R := some (emb [0, 1])
  lbL := some (emb lbL)
  lbR := some (emb lbR)
  lb := lb
  ub := ub
  x0 := x0

theorem argsOf_are {Q g lbL lbR : List ℚ} {lb ub x0 : Option (List (Ext ℚ))} {v : Fin 2 → ℚ} (hQ : Q.length = 4)
    (hg : g.length = 2) (hL : lbL.length = 1) (hR : lbR.length = 1) (hl : OptLen lb 2) (hu : OptLen ub 2)
    (hx : ArgOpt x0 2 v) : (argsOf Q g lbL lbR lb ub x0).Are dim (prob Q g lbL lbR) v := by
  have hx' : OptLen x0 2 := by
    rcases hx with ⟨rfl, _⟩ | ⟨w, rfl, hw, _⟩
    · rintro v ⟨⟩
    · rintro v ⟨⟩; simpa [emb] using hw
  refine ⟨⟨⟨_, rfl, by simp [emb, hQ]⟩, ⟨_, rfl, by simp [emb]⟩, ⟨_, rfl, by simp [emb]⟩, ?_, ?_, ?_, ?_, ?_, ?_, ?_, ?_, hl, hu,
    hx', ?_⟩, ⟨Q, rfl, by simp [hQ], rfl⟩, ⟨g, rfl, by simp [hg], rfl⟩, Or.inl ⟨rfl, rfl⟩, ⟨_, rfl, by simp, rfl⟩,
    ⟨_, rfl, by simp, rfl⟩, Or.inr ⟨⟨_, rfl, by simp [hL], rfl⟩, _, rfl, by simp [hR], rfl⟩, hx⟩
  · rintro v ⟨⟩; simp [emb, hg]
  · rintro v ⟨⟩
  · rintro v ⟨⟩
  · rintro v ⟨⟩
  · rintro v ⟨⟩; simp [emb, hL]
  · rintro v ⟨⟩
  · rintro v ⟨⟩; simp [emb, hR]
  · rintro v ⟨⟩
  · rintro v ⟨⟩

theorem finAns_good {r : Nat → Req (Ext ℚ) → Resp (Ext ℚ)} (h : ∀ k q, ∃ x y, r k q = good x y) : FinAns (envOf r) := by
  intro k q _ i
  obtain ⟨x, y, hxy⟩ := h k q
  simp only [envOf, hxy]
  exact ⟨⟨_, rfl⟩, ⟨_, rfl⟩⟩

/-- load and run -/
def go (e : Env (Ext ℚ)) (op : Options (Ext ℚ)) (a : DenseArgs (Ext ℚ)) (fuel : Nat) : M (Option (RV × Obj (Ext ℚ))) := do
  let r ← loadDense e (Obj.new op 2 0 1) a
  runSolver e fuel r.2

theorem noLow (op : Options (Ext ℚ)) : NoLow (Obj.new op 2 0 1) := ⟨rfl, rfl, rfl, zero_fin⟩

/-- the entries of a request as rational numbers -/
def val (l : List (Ext ℚ)) (i : Nat) : ℚ := match l.getD i .nan with | .fin v => v | _ => 0

/-- a qpOASES wrapper that answers with point, constraint multipliers and bound multipliers computed from the linear term;
as OSQP it always fails -/
def solver (ans : ℚ → ℚ → List ℚ × List ℚ × List ℚ) : Env (Ext ℚ) := envOf fun _ q =>
  match q.sub with
  | .osqp _ _ => { good [] [] with ret := 1 }
  | _ => good (ans (val q.g 0) (val q.g 1)).1 ((ans (val q.g 0) (val q.g 1)).2.2 ++ (ans (val q.g 0) (val q.g 1)).2.1)

theorem solver_fin (ans : ℚ → ℚ → List ℚ × List ℚ × List ℚ) : FinAns (solver ans) := by
  intro k q _ i
  simp only [solver, envOf]
  split <;> exact ⟨⟨_, rfl⟩, ⟨_, rfl⟩⟩

/-- the answers of such a solver -/
theorem solver_is {ans : ℚ → ℚ → List ℚ × List ℚ × List ℚ} {k : Nat} {q : Req (Ext ℚ)} {p : Qp ℚ dim} (hq : q.Is dim p)
    {x z w : Fin 2 → ℚ} (hans : ans (p.g 0) (p.g 1) = ([x 0, x 1], [z 0, z 1], [w 0, w 1]))
    (hok : QpOk q.sub ((solver ans).qp k q)) : ((solver ans).qp k q).Is q.sub dim x z w := by
  have h0 : val q.g 0 = p.g 0 := by rw [hq.g]; rfl
  have h1 : val q.g 1 = p.g 1 := by rw [hq.g]; rfl
  obtain ⟨sub, q2, q3, q4, q5, q6, q7, q8, q9, q10, q11⟩ := q
  dsimp only at h0 h1 hok ⊢
  have hr : ∀ r : Resp (Ext ℚ), r = good [x 0, x 1] ([w 0, w 1] ++ [z 0, z 1]) → (∀ i : Fin 2, r.x i.1 = fin (x i)) ∧
      (∀ i : Fin 2, r.y i.1 = fin (w i)) ∧ ∀ i : Fin 2, r.y (2 + i.1) = fin (z i) := by
    rintro r rfl
    refine ⟨fun i => ?_, fun i => ?_, fun i => ?_⟩ <;> fin_cases i <;> rfl
  cases sub with
  | dense a b c d => exact hr _ (by simp only [solver, envOf, h0, h1, hans])
  | sparse a b c d => exact hr _ (by simp only [solver, envOf, h0, h1, hans])
  | osqp a b => exact absurd hok.1 (by simp [solver, envOf])

/-- what makes such a solver exact -/
theorem solver_exact {ans : ℚ → ℚ → List ℚ × List ℚ × List ℚ} {P : Prob ℚ dim} {lA uA : Fin 2 → Ext ℚ} {l u : Fin 2 → Ext ℚ}
    (h : ∀ g : Fin 2 → ℚ, ∃ x z w : Fin 2 → ℚ, ans (g 0) (g 1) = ([x 0, x 1], [z 0, z 1], [w 0, w 1]) ∧
      (P.subQp lA uA l u g).Kkt x z w) : ExactOn (solver ans) dim (IsSub P lA uA l u) := by
  rintro k q _ hq ⟨g, rfl⟩ hok
  obtain ⟨x, z, w, hans, hk⟩ := h g
  exact ⟨x, z, w, solver_is hq hans hok, hk⟩

theorem setup_of {e : Env (Ext ℚ)} {op : Options (Ext ℚ)} {a : DenseArgs (Ext ℚ)} {P : Prob ℚ dim} {v : Fin 2 → ℚ} {r0 f : ℚ}
    (ha : a.Are dim P v) (he : FinAns e) (hr : op.rho0 = fin r0) (hf : op.factor = fin f) (f0 : f ≠ 0)
    (hl : (loadDense e (Obj.new op 2 0 1) a).map (·.1) = .ok .successfulReturn) :
    ∃ o, loadDense e (Obj.new op 2 0 1) a = .ok (.successfulReturn, o) ∧ Setup e o dim P v r0 f ∧ o.d.sparse = false ∧
      o.d.opts = op ∧ Stored o dim a.bnds := by
  cases h : loadDense e (Obj.new op 2 0 1) a with
  | error x => rw [h] at hl; cases hl
  | ok q =>
    rw [h] at hl
    obtain ⟨c, o⟩ := q
    have hl : c = .successfulReturn := by injection hl
    subst hl
    have hb : Built (Obj.new op 2 0 1) dim := Built.new op (by decide)
    obtain ⟨h1, h2⟩ := Setup.dense hb (noLow op) ha h hr hf f0 he
    exact ⟨o, rfl, h1, h2, (hb.load ha.fits (argLow_pair ha.low) h).2.1, Stored.dense hb rfl rfl ha.fits h⟩

theorem prob_AA {Q g lbL lbR : List ℚ} (x : Fin dim.nV → ℚ) (i : Fin dim.nA) :
    ((prob Q g lbL lbR).AA *ᵥ x) i = x i := by
  revert i x
  change ∀ (x : Fin 2 → ℚ) (i : Fin 2), ∑ j : Fin 2, (prob Q g lbL lbR).AA i j * x j = x i
  intro x
  refine Fin.forall_fin_two.mpr ⟨?_, ?_⟩ <;> rw [Fin.sum_univ_two] <;>
    simp [prob, Prob.AA, stackRows, mat]

theorem prob_AAT {Q g lbL lbR : List ℚ} (x : Fin dim.nA → ℚ) (i : Fin dim.nV) :
    ((prob Q g lbL lbR).AAᵀ *ᵥ x) i = x i := by
  revert i x
  change ∀ (x : Fin 2 → ℚ) (i : Fin 2), ∑ j : Fin 2, (prob Q g lbL lbR).AA j i * x j = x i
  intro x
  refine Fin.forall_fin_two.mpr ⟨?_, ?_⟩ <;> rw [Fin.sum_univ_two] <;>
    simp [prob, Prob.AA, stackRows, mat]

theorem prob_Q {c : ℚ} {g lbL lbR : List ℚ} (x : Fin dim.nV → ℚ) (i : Fin dim.nV) :
    ((prob [c, 0, 0, c] g lbL lbR).Q *ᵥ x) i = c * x i := by
  revert i x
  change ∀ (x : Fin 2 → ℚ) (i : Fin 2), ∑ j : Fin 2, (prob [c, 0, 0, c] g lbL lbR).Q i j * x j = c * x i
  intro x
  refine Fin.forall_fin_two.mpr ⟨?_, ?_⟩ <;> rw [Fin.sum_univ_two] <;> simp [prob, mat]

theorem prob_psd {c : ℚ} (hc : 0 ≤ c) {g lbL lbR : List ℚ} : (prob [c, 0, 0, c] g lbL lbR).Qᵀ = (prob [c, 0, 0, c] g lbL lbR).Q ∧
    ∀ v, 0 ≤ v ⬝ᵥ ((prob [c, 0, 0, c] g lbL lbR).Q *ᵥ v) := by
  refine ⟨?_, fun v => ?_⟩
  · ext i j
    revert i j
    exact Fin.forall_fin_two.mpr ⟨Fin.forall_fin_two.mpr ⟨rfl, rfl⟩, Fin.forall_fin_two.mpr ⟨rfl, rfl⟩⟩
  · refine Finset.sum_nonneg fun i _ => ?_
    rw [prob_Q]
    nlinarith [mul_nonneg hc (mul_self_nonneg (v i))]

/-- the optimality conditions of the subproblems of these examples -/
theorem kkt_of {c : ℚ} {h lbL lbR : List ℚ} {lA uA : Fin dim.nA → Ext ℚ} {l u : Fin dim.nV → Ext ℚ} {g x w : Fin dim.nV → ℚ}
    {z : Fin dim.nA → ℚ} (f1 : ∀ i : Fin 2, (lA i <=. fin (x i)) = true) (f2 : ∀ i : Fin 2, (fin (x i) <=. uA i) = true)
    (f3 : ∀ i, (l i <=. fin (x i)) = true) (f4 : ∀ i, (fin (x i) <=. u i) = true)
    (st : ∀ i : Fin 2, c * x i + g i = z i + w i) (a1 : ∀ i : Fin 2, 0 < z i → lA i = fin (x i))
    (a2 : ∀ i : Fin 2, z i < 0 → uA i = fin (x i)) (a3 : ∀ i, 0 < w i → l i = fin (x i))
    (a4 : ∀ i, w i < 0 → u i = fin (x i)) : ((prob [c, 0, 0, c] h lbL lbR).subQp lA uA l u g).Kkt x z w := by
  refine ⟨⟨fun i => ?_, fun i => ?_, f3, f4⟩, ?_, fun i => ?_, fun i => ?_, a3, a4⟩
  · exact (congrArg (fun t => (lA i <=. fin t)) (prob_AA x i)).trans (f1 i)
  · exact (congrArg (fun t => (fin t <=. uA i)) (prob_AA x i)).trans (f2 i)
  · ext i
    refine Eq.trans ?_ ((st i).trans ?_)
    · exact congrArg (· + g i) (prob_Q (c := c) (g := h) (lbL := lbL) (lbR := lbR) x i)
    · exact congrArg (· + w i) (prob_AAT (Q := [c, 0, 0, c]) (g := h) (lbL := lbL) (lbR := lbR) z i).symm
  · exact fun h => (a1 i h).trans (congrArg fin (prob_AA x i)).symm
  · exact fun h => (a2 i h).trans (congrArg fin (prob_AA x i)).symm

/-! ## a run ending successfully at a point that is not stationary -/

/-- minimises `x² + y² + g'(x,y)` over `x ≥ 1`, `y ≥ 0` -/
def ans1 (a b : ℚ) : List ℚ × List ℚ × List ℚ :=
  ([max 1 (-a/2), max 0 (-b/2)], [2 * max 1 (-a/2) + a, 2 * max 0 (-b/2) + b], [0, 0])

/-- `min (x-1)² + (y-1)²` subject to `0 ≤ x - 1 ⟂ y ≥ 0` -/
abbrev prob1 := prob [2, 0, 0, 2] [-2, -2] [1] [0]

/-- its arguments -/
def args1 := argsOf [2, 0, 0, 2] [-2, -2] [1] [0] none none none

theorem exact1 : ExactOn (solver ans1) dim (IsSub prob1 ![fin 1, fin 0] (fun _ => pinf) (fun _ => ninf) (fun _ => pinf)) := by
  apply solver_exact
  intro g
  refine ⟨![max 1 (-g 0 / 2), max 0 (-g 1 / 2)], ![2 * max 1 (-g 0 / 2) + g 0, 2 * max 0 (-g 1 / 2) + g 1], 0, rfl, ?_⟩
  have h1 := le_max_left 1 (-g 0 / 2)
  have h2 := le_max_right 1 (-g 0 / 2)
  have h3 := le_max_left 0 (-g 1 / 2)
  have h4 := le_max_right 0 (-g 1 / 2)
  have c1 : 1 = max 1 (-g 0 / 2) ∨ -g 0 / 2 = max 1 (-g 0 / 2) := by
    rcases max_choice 1 (-g 0 / 2) with h | h
    · exact Or.inl h.symm
    · exact Or.inr h.symm
  have c2 : 0 = max 0 (-g 1 / 2) ∨ -g 1 / 2 = max 0 (-g 1 / 2) := by
    rcases max_choice 0 (-g 1 / 2) with h | h
    · exact Or.inl h.symm
    · exact Or.inr h.symm
  generalize max 1 (-g 0 / 2) = a at *
  generalize max 0 (-g 1 / 2) = b at *
  refine kkt_of (Fin.forall_fin_two.mpr ⟨?_, ?_⟩) (fun i => rfl) (fun i => rfl) (fun i => rfl)
    (Fin.forall_fin_two.mpr ⟨?_, ?_⟩) (Fin.forall_fin_two.mpr ⟨fun h => ?_, fun h => ?_⟩)
    (Fin.forall_fin_two.mpr ⟨fun h => ?_, fun h => ?_⟩) (fun i h => absurd h (lt_irrefl _))
    (fun i h => absurd h (lt_irrefl _))
  · simpa using h1
  · simpa using h3
  · simp
  · simp
  · have h : 0 < 2 * a + g 0 := h
    rcases c1 with c | c
    · exact congrArg fin c
    · linarith
  · have h : 0 < 2 * b + g 1 := h
    rcases c2 with c | c
    · exact congrArg fin c
    · linarith
  · have h : 2 * a + g 0 < 0 := h
    linarith
  · have h : 2 * b + g 1 < 0 := h
    linarith

/-- minimises `x² + y² + g'(x,y)` over `x ≥ 1`, `y = 1` -/
def ans2 (a b : ℚ) : List ℚ × List ℚ × List ℚ := ([max 1 (-a/2), 1], [2 * max 1 (-a/2) + a, 0], [0, 2 + b])

/-- `min x² + y² - 4 x - 2 y` subject to `0 ≤ x - 1 ⟂ y ≥ 0` (and `y = 1`) -/
abbrev prob2 := prob [2, 0, 0, 2] [-4, -2] [1] [0]

/-- its arguments -/
def args2 := argsOf [2, 0, 0, 2] [-4, -2] [1] [0] (some [ninf, fin 1]) (some [pinf, fin 1]) none

theorem exact2 : ExactOn (solver ans2) dim (IsSub prob2 ![fin 1, fin 0] (fun _ => pinf) ![ninf, fin 1] ![pinf, fin 1]) := by
  apply solver_exact
  intro g
  refine ⟨![max 1 (-g 0 / 2), 1], ![2 * max 1 (-g 0 / 2) + g 0, 0], ![0, 2 + g 1], rfl, ?_⟩
  have h1 := le_max_left 1 (-g 0 / 2)
  have h2 := le_max_right 1 (-g 0 / 2)
  have c1 : 1 = max 1 (-g 0 / 2) ∨ -g 0 / 2 = max 1 (-g 0 / 2) := by
    rcases max_choice 1 (-g 0 / 2) with h | h
    · exact Or.inl h.symm
    · exact Or.inr h.symm
  generalize max 1 (-g 0 / 2) = a at *
  refine kkt_of (Fin.forall_fin_two.mpr ⟨?_, ?_⟩) (fun i => rfl) (Fin.forall_fin_two.mpr ⟨rfl, ?_⟩)
    (Fin.forall_fin_two.mpr ⟨rfl, ?_⟩)
    (Fin.forall_fin_two.mpr ⟨?_, ?_⟩) (Fin.forall_fin_two.mpr ⟨fun h => ?_, fun h => absurd h (lt_irrefl _)⟩)
    (Fin.forall_fin_two.mpr ⟨fun h => ?_, fun h => absurd h (lt_irrefl _)⟩)
    (Fin.forall_fin_two.mpr ⟨fun h => absurd h (lt_irrefl _), fun _ => rfl⟩)
    (Fin.forall_fin_two.mpr ⟨fun h => absurd h (lt_irrefl _), fun _ => rfl⟩)
  · simpa using h1
  · simp
  · simp
  · simp
  · simp
  · simp
  · have h : 0 < 2 * a + g 0 := h
    rcases c1 with c | c
    · exact congrArg fin c
    · linarith
  · have h : 2 * a + g 0 < 0 := h
    linarith

/-- minimises `g'(x,y)` over the unit square -/
def ans3 (a b : ℚ) : List ℚ × List ℚ × List ℚ :=
  ([if 0 < a then 0 else 1, if 0 < b then 0 else 1], [max a 0, max b 0], [min a 0, min b 0])

/-- `min 0` subject to `0 ≤ x ⟂ y ≥ 0`, `x, y ≤ 1` -/
abbrev prob3 := prob [0, 0, 0, 0] [0, 0] [0] [0]

/-- its arguments -/
def args3 := argsOf [0, 0, 0, 0] [0, 0] [0] [0] none (some (emb [1, 1])) none

theorem exact3 : ExactOn (solver ans3) dim (IsSub prob3 ![fin 0, fin 0] (fun _ => pinf) (fun _ => ninf) ![fin 1, fin 1]) := by
  apply solver_exact
  intro g
  refine ⟨![if 0 < g 0 then 0 else 1, if 0 < g 1 then 0 else 1], ![max (g 0) 0, max (g 1) 0], ![min (g 0) 0, min (g 1) 0], rfl, ?_⟩
  have k : ∀ a : ℚ, 0 ≤ (if 0 < a then 0 else 1 : ℚ) ∧ (if 0 < a then 0 else 1 : ℚ) ≤ 1 := by
    intro a
    split <;> simp
  have kz : ∀ a : ℚ, 0 < max a 0 → (0 : ℚ) = (if 0 < a then 0 else 1 : ℚ) := by
    intro a h
    rw [if_pos]
    simpa using h
  have kw : ∀ a : ℚ, min a 0 < 0 → (1 : ℚ) = (if 0 < a then 0 else 1 : ℚ) := by
    intro a h
    rw [if_neg]
    simp only [min_lt_iff, lt_irrefl, or_false] at h
    exact not_lt.mpr h.le
  have ks : ∀ a x : ℚ, 0 * x + a = max a 0 + min a 0 := by
    intro a x
    rw [add_comm (max a 0), min_add_max]
    ring
  refine kkt_of (c := 0) (Fin.forall_fin_two.mpr ⟨?_, ?_⟩) (fun i => rfl) (fun i => rfl) (Fin.forall_fin_two.mpr ⟨?_, ?_⟩)
    (Fin.forall_fin_two.mpr ⟨ks _ _, ks _ _⟩) (Fin.forall_fin_two.mpr ⟨fun h => congrArg fin (kz _ h), fun h => congrArg fin (kz _ h)⟩)
    (Fin.forall_fin_two.mpr ⟨fun h => absurd h (not_lt.mpr (le_max_right _ _)), fun h => absurd h (not_lt.mpr (le_max_right _ _))⟩)
    (Fin.forall_fin_two.mpr ⟨fun h => absurd h (not_lt.mpr (min_le_right _ _)), fun h => absurd h (not_lt.mpr (min_le_right _ _))⟩)
    (Fin.forall_fin_two.mpr ⟨fun h => congrArg fin (kw _ h), fun h => congrArg fin (kw _ h)⟩)
  · simpa using (k (g 0)).1
  · simpa using (k (g 1)).1
  · simpa using (k (g 0)).2
  · simpa using (k (g 1)).2

/-- load, initialise and make the first step and `k` passes -/
def heads (e : Env (Ext ℚ)) (op : Options (Ext ℚ)) (a : DenseArgs (Ext ℚ)) : Nat → Option (Data (Ext ℚ) × St (Ext ℚ))
  | 0 => match loadDense e (Obj.new op 2 0 1) a with
    | .ok r => match initializeSolver e r.2 with
      | .ok i => if i.1 = .successfulReturn then match firstStep e i.2.d i.2.s with
        | .ok (.inl s) => some (i.2.d, s)
        | _ => none else none
      | _ => none
    | _ => none
  | k + 1 => match heads e op a k with
    | some (d, s) => match pass e d s with
      | .ok (.inl s') => some (d, s')
      | _ => none
    | none => none

theorem heads_at {e : Env (Ext ℚ)} {op : Options (Ext ℚ)} {a : DenseArgs (Ext ℚ)} {o : Obj (Ext ℚ)}
    (hl : loadDense e (Obj.new op 2 0 1) a = .ok (.successfulReturn, o)) (k : Nat) {d : Data (Ext ℚ)} {s : St (Ext ℚ)}
    (h : heads e op a k = some (d, s)) : AtHead e o d s := by
  induction k generalizing s with
  | zero =>
    simp only [heads, hl] at h
    cases hi : initializeSolver e o with
    | error x => rw [hi] at h; cases h
    | ok i =>
      rw [hi] at h
      dsimp only at h
      by_cases hs : i.1 = .successfulReturn
      · rw [if_pos hs] at h
        cases hf : firstStep e i.2.d i.2.s with
        | error x => rw [hf] at h; cases h
        | ok q =>
          rw [hf] at h
          cases q with
          | inr q => cases h
          | inl q =>
            injection h with h
            injection h with h1 h2
            subst h1 h2
            exact ⟨_, ⟨i, hi, hs, rfl, hf⟩, .start⟩
      · rw [if_neg hs] at h
        cases h
  | succ k ih =>
    simp only [heads] at h
    cases hh : heads e op a k with
    | none => rw [hh] at h; cases h
    | some t =>
      obtain ⟨d', s'⟩ := t
      rw [hh] at h
      dsimp only at h
      cases hf : pass e d' s' with
      | error x => rw [hf] at h; cases h
      | ok q =>
        rw [hf] at h
        cases q with
        | inr q => cases h
        | inl q =>
          injection h with h
          injection h with h1 h2
          subst h1 h2
          obtain ⟨s0, h0, hr⟩ := ih hh
          exact ⟨s0, h0, .pass hr hf⟩

/-- what is looked at after a run -/
structure Look where
  rv : RV
  off : Option Nat
  outer : Option Int
  rho : Option (Ext ℚ)
  x : Option (List (Ext ℚ))
  yA : Option (List (Ext ℚ))
  y : Option (List (Ext ℚ))
  deriving DecidableEq

/-- what is looked at in a result -/
def look (r : M (Option (RV × Obj (Ext ℚ)))) : Option Look := match r with
  | .ok (some p) => some ⟨p.1, p.2.d.boxOff, p.2.s.outer, p.2.s.rho, p.2.s.xk, p.2.s.ykA, p.2.s.yk⟩
  | _ => none

theorem look_inv {e : Env (Ext ℚ)} {op : Options (Ext ℚ)} {a : DenseArgs (Ext ℚ)} {fuel : Nat} {o : Obj (Ext ℚ)} {l : Look}
    (hl : loadDense e (Obj.new op 2 0 1) a = .ok (.successfulReturn, o)) (h : look (go e op a fuel) = some l) :
    ∃ o', runSolver e fuel o = .ok (some (l.rv, o')) ∧ o'.d.boxOff = l.off ∧ o'.s.outer = l.outer ∧ o'.s.rho = l.rho ∧
      o'.s.xk = l.x ∧ o'.s.ykA = l.yA ∧ o'.s.yk = l.y := by
  simp only [go, hl, ok_bind] at h
  cases hr : runSolver e fuel o with
  | error x => rw [hr] at h; cases h
  | ok q =>
    rw [hr] at h
    cases q with
    | none => cases h
    | some p =>
      injection h with h
      subst h
      exact ⟨p.2, rfl, rfl, rfl, rfl, rfl, rfl, rfl⟩

theorem look1 : look (go (solver ans1) opts args1 20) = some ⟨.successfulReturn, some 2, some 0, some (fin (1/100)),
    some (emb [1, 199/200]), some (emb [199/20000, 0]), some (emb [0, 0, 0, -1/100])⟩ := by decide +kernel

/-- options of the second example -/
def opts2 : Options (Ext ℚ) := { opts with rho0 := fin 1 }

theorem look2 : look (go (solver ans2) opts2 args2 20) = some ⟨.successfulReturn, some 2, some 1, some (fin 2),
    some (emb [1, 1]), some (emb [0, 0]), some (emb [0, 0, -2, -2])⟩ := by decide +kernel

theorem ev_two {x : Fin 2 → ℚ} {a b : ℚ} (h : some (emb [a, b]) = some (ev x)) : x = ![a, b] := by
  injection h with h
  simp only [ev, emb, List.ofFn_succ, List.ofFn_zero, List.map_cons, List.map_nil, List.cons.injEq, fin.injEq] at h
  funext i
  revert i
  exact Fin.forall_fin_two.mpr ⟨h.1.symm, h.2.1.symm⟩

theorem ev_four {x : Fin 4 → ℚ} {a b c d : ℚ} (h : some (emb [a, b, c, d]) = some (ev x)) :
    x 0 = a ∧ x 1 = b ∧ x 2 = c ∧ x 3 = d := by
  injection h with h
  simp only [ev, emb, List.ofFn_succ, List.ofFn_zero, List.map_cons, List.map_nil, List.cons.injEq, fin.injEq] at h
  exact ⟨h.1.symm, h.2.1.symm, h.2.2.1.symm, h.2.2.2.1.symm⟩

theorem load1 : (loadDense (solver ans1) (Obj.new opts 2 0 1) args1).map (·.1) = .ok .successfulReturn := by rfl

theorem load2 : (loadDense (solver ans2) (Obj.new opts2 2 0 1) args2).map (·.1) = .ok .successfulReturn := by rfl

theorem load3 : (loadDense (solver ans3) (Obj.new opts 2 0 1) args3).map (·.1) = .ok .successfulReturn := by rfl

/-- the run of the first example -/
theorem wit1 : ∃ o o', Setup (solver ans1) o dim prob1 (fun _ => 0) (1 / 100) 2 ∧ o.d.sparse = false ∧ o.d.opts = opts ∧
    BoundsAre o dim ![fin 1, fin 0] (fun _ => pinf) (fun _ => ninf) (fun _ => pinf) ∧
    runSolver (solver ans1) 20 o = .ok (some (.successfulReturn, o')) ∧ o'.d.boxOff = some 2 ∧ o'.s.outer = some 0 ∧
    o'.s.rho = some (fin (1 / 100)) ∧ o'.s.xk = some (emb [1, 199 / 200]) ∧ o'.s.ykA = some (emb [199 / 20000, 0]) ∧
    o'.s.yk = some (emb [0, 0, 0, -1 / 100]) := by
  obtain ⟨o, hl, hS, hsp, ho, hst⟩ := setup_of (v := fun _ => 0) (argsOf_are (Q := [2, 0, 0, 2]) (g := [-2, -2]) (lbL := [1])
    (lbR := [0]) (lb := none) (ub := none) (x0 := none) rfl rfl rfl rfl (by rintro v ⟨⟩) (by rintro v ⟨⟩) (Or.inl ⟨rfl, rfl⟩))
    (solver_fin ans1) (op := opts) (r0 := 1 / 100) (f := 2) (by decide +kernel) (by decide +kernel) (by decide) load1
  obtain ⟨o', hr, h1, h2, h3, h4, h5, h6⟩ := look_inv hl look1
  refine ⟨o, o', hS, hsp, ho, ⟨?_, ?_, ?_, ?_⟩, hr, h1, h2, h3, h4, h5, h6⟩
  · rw [hst.lbA]; decide +kernel
  · rw [hst.ubA]; decide +kernel
  · rw [hst.lb]; decide +kernel
  · rw [hst.ub]; decide +kernel

/-- the run of the second example -/
theorem wit2 : ∃ o o', Setup (solver ans2) o dim prob2 (fun _ => 0) 1 2 ∧ o.d.sparse = false ∧ o.d.opts = opts2 ∧
    BoundsAre o dim ![fin 1, fin 0] (fun _ => pinf) ![ninf, fin 1] ![pinf, fin 1] ∧
    runSolver (solver ans2) 20 o = .ok (some (.successfulReturn, o')) ∧ o'.d.boxOff = some 2 ∧ o'.s.outer = some 1 ∧
    o'.s.rho = some (fin 2) ∧ o'.s.xk = some (emb [1, 1]) ∧ o'.s.ykA = some (emb [0, 0]) ∧
    o'.s.yk = some (emb [0, 0, -2, -2]) := by
  obtain ⟨o, hl, hS, hsp, ho, hst⟩ := setup_of (v := fun _ => 0) (argsOf_are (Q := [2, 0, 0, 2]) (g := [-4, -2]) (lbL := [1])
    (lbR := [0]) (lb := some [ninf, fin 1]) (ub := some [pinf, fin 1]) (x0 := none) rfl rfl rfl rfl (by rintro v ⟨⟩; rfl)
    (by rintro v ⟨⟩; rfl) (Or.inl ⟨rfl, rfl⟩))
    (solver_fin ans2) (op := opts2) (r0 := 1) (f := 2) (by decide +kernel) (by decide +kernel) (by decide) load2
  obtain ⟨o', hr, h1, h2, h3, h4, h5, h6⟩ := look_inv hl look2
  refine ⟨o, o', hS, hsp, ho, ⟨?_, ?_, ?_, ?_⟩, hr, h1, h2, h3, h4, h5, h6⟩
  · rw [hst.lbA]; decide +kernel
  · rw [hst.ubA]; decide +kernel
  · rw [hst.lb]; decide +kernel
  · rw [hst.ub]; decide +kernel

/-- the second and third head of the main loop in the third example -/
theorem heads3 : (heads (solver ans3) opts args3 2).map (fun p => (p.2.xk, p.2.pk, p.2.alpha, p.2.rho)) =
    some (some (emb [0, 0]), some (emb [1, 1]), some (fin 1), some (fin (1 / 100))) := by decide +kernel

/-- a pass of the third example -/
theorem wit3 : ∃ o d s s', Setup (solver ans3) o dim prob3 (fun _ => 0) (1 / 100) 2 ∧ o.d.opts = opts ∧
    BoundsAre o dim ![fin 0, fin 0] (fun _ => pinf) (fun _ => ninf) ![fin 1, fin 1] ∧ AtHead (solver ans3) o d s ∧
    pass (solver ans3) d s = .ok (.inl s') ∧ s'.xk = some (emb [0, 0]) ∧ s'.pk = some (emb [1, 1]) ∧
    s'.alpha = some (fin 1) ∧ s'.rho = some (fin (1 / 100)) := by
  obtain ⟨o, hl, hS, hsp, ho, hst⟩ := setup_of (v := fun _ => 0) (argsOf_are (Q := [0, 0, 0, 0]) (g := [0, 0]) (lbL := [0])
    (lbR := [0]) (lb := none) (ub := some (emb [1, 1])) (x0 := none) rfl rfl rfl rfl (by rintro v ⟨⟩)
    (by rintro v ⟨⟩; rfl) (Or.inl ⟨rfl, rfl⟩))
    (solver_fin ans3) (op := opts) (r0 := 1 / 100) (f := 2) (by decide +kernel) (by decide +kernel) (by decide) load3
  have h2 := heads3
  cases h : heads (solver ans3) opts args3 2 with
  | none => rw [h] at h2; cases h2
  | some p =>
    rw [h] at h2
    injection h2 with h2
    injection h2 with a1 h2
    injection h2 with a2 h2
    injection h2 with a3 a4
    have h1 : ∃ s, heads (solver ans3) opts args3 1 = some (p.1, s) ∧ pass (solver ans3) p.1 s = .ok (.inl p.2) := by
      rw [heads] at h
      cases h1 : heads (solver ans3) opts args3 1 with
      | none => rw [h1] at h; cases h
      | some q =>
        obtain ⟨d, s⟩ := q
        rw [h1] at h
        dsimp only at h
        cases hp : pass (solver ans3) d s with
        | error x => rw [hp] at h; cases h
        | ok t =>
          rw [hp] at h
          cases t with
          | inr t => cases h
          | inl t =>
            injection h with h
            subst h
            exact ⟨s, rfl, hp⟩
    obtain ⟨s, h1, hp⟩ := h1
    refine ⟨o, p.1, s, p.2, hS, ho, ⟨?_, ?_, ?_, ?_⟩, heads_at hl 1 h1, hp, a1, a2, a3, a4⟩
    · rw [hst.lbA]; decide +kernel
    · rw [hst.ubA]; decide +kernel
    · rw [hst.lb]; decide +kernel
    · rw [hst.ub]; decide +kernel

end LCQ.Ex

namespace LCQ
open Scalar Ext
open scoped Matrix

/-- C20: the condition of `C20_certified` is needed.  With lower bounds on the complementarity constraints, and before the
first penalty update, success is reported although the gradient of the penalised Lagrangian is far from zero, even if `Q` is
symmetric and positive definite and every QP is solved exactly. -/
theorem C20_fails : ∃ (e : Env (Ext ℚ)) (o o' : Obj (Ext ℚ)) (P : Prob ℚ ⟨2, 0, 1⟩) (fuel : Nat) (ts : ℚ),
    (∃ x0 r0 f, Setup e o ⟨2, 0, 1⟩ P x0 r0 f) ∧ P.Qᵀ = P.Q ∧ (∀ v, 0 ≤ v ⬝ᵥ (P.Q *ᵥ v)) ∧
    (∃ lA uA l u, BoundsAre o ⟨2, 0, 1⟩ lA uA l u ∧ ExactOn e ⟨2, 0, 1⟩ (IsSub P lA uA l u)) ∧
    o.d.opts.statTol = fin ts ∧ runSolver e fuel o = .ok (some (.successfulReturn, o')) ∧ ¬ PenCertified P o' ts := by
  obtain ⟨o, o', hS, _, ho, hB, hr, h1, h2, h3, h4, h5, h6⟩ := Ex.wit1
  refine ⟨_, o, o', Ex.prob1, 20, 2221 / 10000000000000, ⟨_, _, _, hS⟩, (Ex.prob_psd (by decide)).1,
    (Ex.prob_psd (by decide)).2, ⟨_, _, _, _, hB, Ex.exact1⟩, by rw [ho]; decide +kernel, hr, ?_⟩
  rintro ⟨off, r, x, y, y', g1, g2, g3, g4, g5, g6, hres⟩
  rw [h1] at g1
  injection g1 with g1
  subst g1
  rw [h3] at g3
  injection g3 with g3
  injection g3 with g3
  subst g3
  rw [h4] at g2
  have hx : x = ![1, 199 / 200] := Ex.ev_two g2
  rw [h5] at g4
  have hy : yLin y = ![199 / 20000, 0] := Ex.ev_two g4
  rw [h6] at g5
  obtain ⟨b0, b1, _, _⟩ := Ex.ev_four g5
  have hb : yBox y = ![0, 0] := by
    rw [← g6]
    funext i
    revert i
    exact Fin.forall_fin_two.mpr ⟨b0, b1⟩
  have hi := hres (1 : Fin 2)
  simp only [Prob.penResidual] at hi
  rw [hb, hy, hx] at hi
  revert hi
  decide +kernel

/-- C21: the condition of `C21_stationary` is needed.  With lower bounds on the complementarity constraints and after a
penalty update the multipliers returned with a success do not satisfy the stationarity condition of the problem, even if
`Q` is symmetric and positive definite and every QP is solved exactly. -/
theorem C21_fails : ∃ (e : Env (Ext ℚ)) (o o' : Obj (Ext ℚ)) (P : Prob ℚ ⟨2, 0, 1⟩) (fuel : Nat) (ts : ℚ),
    (∃ x0 r0 f, Setup e o ⟨2, 0, 1⟩ P x0 r0 f) ∧ P.Qᵀ = P.Q ∧ (∀ v, 0 ≤ v ⬝ᵥ (P.Q *ᵥ v)) ∧
    (∃ lA uA l u, BoundsAre o ⟨2, 0, 1⟩ lA uA l u ∧ ExactOn e ⟨2, 0, 1⟩ (IsSub P lA uA l u)) ∧
    o.d.opts.statTol = fin ts ∧ runSolver e fuel o = .ok (some (.successfulReturn, o')) ∧ ¬ Stationary P o' ts := by
  obtain ⟨o, o', hS, _, ho, hB, hr, h1, h2, h3, h4, h5, h6⟩ := Ex.wit2
  refine ⟨_, o, o', Ex.prob2, 20, 2221 / 10000000000000, ⟨_, _, _, hS⟩, (Ex.prob_psd (by decide)).1,
    (Ex.prob_psd (by decide)).2, ⟨_, _, _, _, hB, Ex.exact2⟩, by rw [ho]; decide +kernel, hr, ?_⟩
  rintro ⟨off, x, y, g1, g2, g5, hres⟩
  rw [h1] at g1
  injection g1 with g1
  subst g1
  rw [h4] at g2
  have hx : x = ![1, 1] := Ex.ev_two g2
  rw [h6] at g5
  obtain ⟨b0, b1, b2, b3⟩ := Ex.ev_four g5
  have hb : yBox y = ![0, 0] := by
    funext i
    revert i
    exact Fin.forall_fin_two.mpr ⟨b0, b1⟩
  have hy : yLin y = ![-2, -2] := by
    funext i
    revert i
    exact Fin.forall_fin_two.mpr ⟨b2, b3⟩
  have hi := hres (1 : Fin 2)
  simp only [Prob.residual] at hi
  rw [hb, hy, hx] at hi
  revert hi
  decide +kernel

/-- C47: with lower bounds on the complementarity constraints success can be reported at a point that is not even weakly
stationary for the given tolerance, whatever multipliers are used, although `Q` is symmetric and positive definite and every
QP is solved exactly. -/
theorem C47_not_stationary : ∃ (e : Env (Ext ℚ)) (o o' : Obj (Ext ℚ)) (P : Prob ℚ ⟨2, 0, 1⟩) (lA uA : Fin 2 → Ext ℚ)
    (l u : Fin 2 → Ext ℚ) (fuel : Nat) (ts : ℚ) (x : Fin 2 → ℚ),
    (∃ x0 r0 f, Setup e o ⟨2, 0, 1⟩ P x0 r0 f) ∧ P.Qᵀ = P.Q ∧ (∀ v, 0 ≤ v ⬝ᵥ (P.Q *ᵥ v)) ∧
    BoundsAre o ⟨2, 0, 1⟩ lA uA l u ∧ ExactOn e ⟨2, 0, 1⟩ (IsSub P lA uA l u) ∧
    o.d.opts.statTol = fin ts ∧ runSolver e fuel o = .ok (some (.successfulReturn, o')) ∧ o'.s.xk = some (ev x) ∧
    ¬ P.WeakStat lA uA l u ts x := by
  obtain ⟨o, o', hS, _, ho, hB, hr, h1, h2, h3, h4, h5, h6⟩ := Ex.wit1
  refine ⟨_, o, o', Ex.prob1, _, _, _, _, 20, 2221 / 10000000000000, ![1, 199 / 200], ⟨_, _, _, hS⟩,
    (Ex.prob_psd (by decide)).1, (Ex.prob_psd (by decide)).2, hB, Ex.exact1, by rw [ho]; decide +kernel, hr, ?_, ?_⟩
  · rw [h4]; decide +kernel
  · rintro ⟨z, w, hres, hz, hw⟩
    have z1 : z (1 : Fin 2) = 0 := hz (1 : Fin 2) (by decide +kernel) (by decide +kernel)
    have w1 : w (1 : Fin 2) = 0 := hw (1 : Fin 2) (by decide +kernel) (by decide +kernel)
    have hi : |Ex.prob1.gradObj ![1, 199 / 200] (1 : Fin 2) - (Ex.prob1.AAᵀ *ᵥ z) (1 : Fin 2) - w (1 : Fin 2)| < _ :=
      hres (1 : Fin 2)
    rw [Ex.prob_AAT, z1, w1] at hi
    revert hi
    decide +kernel

/-- C26: the penalty function can increase in a pass, even if every QP is solved exactly, `Q` is symmetric and positive
semidefinite and there are no lower complementarity bounds: if the slope is zero and the curvature positive, a full step is
made.  (So the last condition of `C26_descent` is needed.) -/
theorem C26_increase : ∃ (e : Env (Ext ℚ)) (o : Obj (Ext ℚ)) (P : Prob ℚ ⟨2, 0, 1⟩) (d : Data (Ext ℚ)) (s s' : St (Ext ℚ))
    (x p : Fin 2 → ℚ) (a r : ℚ), (∃ x0 r0 f, Setup e o ⟨2, 0, 1⟩ P x0 r0 f) ∧ P.Qᵀ = P.Q ∧ (∀ v, 0 ≤ v ⬝ᵥ (P.Q *ᵥ v)) ∧
    P.gPhi = 0 ∧ o.d.opts.perturb = false ∧
    (∃ lA uA l u, BoundsAre o ⟨2, 0, 1⟩ lA uA l u ∧ ExactOn e ⟨2, 0, 1⟩ (IsSub P lA uA l u)) ∧
    AtHead e o d s ∧ pass e d s = .ok (.inl s') ∧ s'.xk = some (ev x) ∧ s'.pk = some (ev p) ∧ s'.alpha = some (fin a) ∧
    s'.rho = some (fin r) ∧ P.pen r x < P.pen r (x + a • p) := by
  obtain ⟨o, d, s, s', hS, ho, hB, ha, hp, h1, h2, h3, h4⟩ := Ex.wit3
  refine ⟨_, o, Ex.prob3, d, s, s', ![0, 0], ![1, 1], 1, 1 / 100, ⟨_, _, _, hS⟩, (Ex.prob_psd (le_refl 0)).1,
    (Ex.prob_psd (le_refl 0)).2, ?_, by rw [ho]; rfl, ⟨_, _, _, _, hB, Ex.exact3⟩, ha, hp, ?_, ?_, h3, h4, by decide +kernel⟩
  · funext i
    revert i
    exact Fin.forall_fin_two.mpr ⟨by decide +kernel, by decide +kernel⟩
  · rw [h1]; decide +kernel
  · rw [h2]; decide +kernel

/-! ## the hypotheses are satisfiable -/

/-- C20: a success after a penalty update, with lower complementarity bounds -/
example : ∃ o', PenCertified Ex.prob2 o' (2221 / 10000000000000) := by
  obtain ⟨o, o', hS, hsp, ho, _, hr, _, h2, _⟩ := Ex.wit2
  exact ⟨o', C20_certified hS (by rw [ho]; decide +kernel) (tc := 2221 / 10000000000000000) (by rw [ho]; decide +kernel)
    (fun h => by rw [hsp] at h; cases h) hr (Or.inl (by rw [h2]; decide))⟩

/-- C20: the value of the complementarity violation -/
example : ∃ (o' : Obj (Ext ℚ)) (x : Fin 2 → ℚ), o'.s.xk = some (ev x) ∧ Ex.prob1.phi x < 2221 / 10000000000000000 := by
  obtain ⟨o, o', hS, hsp, ho, _, hr, _⟩ := Ex.wit1
  exact ⟨o', C20_complementary hS (ts := 2221 / 10000000000000) (by rw [ho]; decide +kernel)
    (tc := 2221 / 10000000000000000) (by rw [ho]; decide +kernel) hr⟩

/-- C20: a success without penalty update -/
example : ∃ (o' : Obj (Ext ℚ)) (off : Nat) (r : ℚ) (x : Fin 2 → ℚ) (y y' : Fin (off + 2) → ℚ),
    o'.d.boxOff = some off ∧ o'.s.xk = some (ev x) ∧ o'.s.rho = some (fin r) ∧ o'.s.ykA = some (ev (yLin (n := Ex.dim) y)) ∧
    o'.s.yk = some (ev y') ∧ yBox (n := Ex.dim) y' = yBox (n := Ex.dim) y ∧
    ∀ i, |(Ex.prob1.penResidual r x y - r • Ex.prob1.gPhi) i| < 2221 / 10000000000000 := by
  obtain ⟨o, o', hS, hsp, ho, _, hr, _, h2, _⟩ := Ex.wit1
  exact ⟨o', C20_no_update hS (by rw [ho]; decide +kernel) (tc := 2221 / 10000000000000000) (by rw [ho]; decide +kernel)
    (fun h => by rw [hsp] at h; cases h) hr h2⟩

/-- C21: a success without penalty update, with lower complementarity bounds -/
example : ∃ o', Stationary Ex.prob1 o' (2221 / 10000000000000) := by
  obtain ⟨o, o', hS, hsp, ho, _, hr, _, h2, _⟩ := Ex.wit1
  exact ⟨o', C21_stationary hS (by rw [ho]; decide +kernel) (tc := 2221 / 10000000000000000) (by rw [ho]; decide +kernel)
    (fun h => by rw [hsp] at h; cases h) hr (Or.inr h2)⟩

/-- C21: the size of the error after a penalty update -/
example : ∃ (o' : Obj (Ext ℚ)) (off : Nat) (r : ℚ) (x : Fin 2 → ℚ) (y : Fin (off + 2) → ℚ),
    o'.d.boxOff = some off ∧ o'.s.xk = some (ev x) ∧ o'.s.rho = some (fin r) ∧ o'.s.yk = some (ev y) ∧
    ∀ i, |(Ex.prob2.residual x y + r • Ex.prob2.gPhi) i| < 2221 / 10000000000000 := by
  obtain ⟨o, o', hS, hsp, ho, _, hr, _, h2, _⟩ := Ex.wit2
  exact ⟨o', C21_error hS (by rw [ho]; decide +kernel) (tc := 2221 / 10000000000000000) (by rw [ho]; decide +kernel)
    (fun h => by rw [hsp] at h; cases h) hr (by rw [h2]; decide)⟩

/-- C24, C25, C26, C48: a state at the head of the main loop, and a further pass, of a run with exactly solved QPs -/
example : ∃ o d s s', Setup (Ex.solver Ex.ans3) o Ex.dim Ex.prob3 (fun _ => 0) (1 / 100) 2 ∧
    AtHead (Ex.solver Ex.ans3) o d s ∧ pass (Ex.solver Ex.ans3) d s = .ok (.inl s') ∧ Ex.prob3.gPhi = 0 ∧
    o.d.opts.perturb = false ∧ Ex.prob3.Qᵀ = Ex.prob3.Q ∧ (∀ v, 0 ≤ v ⬝ᵥ (Ex.prob3.Q *ᵥ v)) ∧
    ∃ lA uA l u, BoundsAre o Ex.dim lA uA l u ∧ ExactOn (Ex.solver Ex.ans3) Ex.dim (IsSub Ex.prob3 lA uA l u) := by
  obtain ⟨o, d, s, s', hS, ho, hB, ha, hp, h1, h2, h3, h4⟩ := Ex.wit3
  refine ⟨o, d, s, s', hS, ha, hp, ?_, by rw [ho]; rfl, (Ex.prob_psd (le_refl 0)).1, (Ex.prob_psd (le_refl 0)).2,
    _, _, _, _, hB, Ex.exact3⟩
  funext i
  revert i
  exact Fin.forall_fin_two.mpr ⟨by decide +kernel, by decide +kernel⟩

/-- C27: a success in a run with exactly (in particular feasibly) solved QPs -/
example : ∃ o o', Setup (Ex.solver Ex.ans1) o Ex.dim Ex.prob1 (fun _ => 0) (1 / 100) 2 ∧ o.d.opts.perturb = false ∧
    runSolver (Ex.solver Ex.ans1) 20 o = .ok (some (.successfulReturn, o')) ∧
    ∃ lA uA l u, BoundsAre o Ex.dim lA uA l u ∧ FeasOn (Ex.solver Ex.ans1) Ex.dim (IsSub Ex.prob1 lA uA l u) := by
  obtain ⟨o, o', hS, hsp, ho, hB, hr, _⟩ := Ex.wit1
  exact ⟨o, o', hS, by rw [ho]; rfl, hr, _, _, _, _, hB, Ex.exact1.feas⟩

theorem BoundsAre.unique {o : Obj (Ext ℚ)} {n : Dims} {lA uA lA' uA' : Fin n.nA → Ext ℚ} {l u l' u' : Fin n.nV → Ext ℚ}
    (h : BoundsAre o n lA uA l u) (h' : BoundsAre o n lA' uA' l' u') : lA = lA' ∧ uA = uA' ∧ l = l' ∧ u = u' :=
  ⟨List.ofFn_injective (Option.some.inj (h.lbA.symm.trans h'.lbA)), List.ofFn_injective (Option.some.inj (h.ubA.symm.trans h'.ubA)),
    List.ofFn_injective (h.lb.symm.trans h'.lb), List.ofFn_injective (h.ub.symm.trans h'.ub)⟩

/-- C27: loading and running the first example -/
example : ∃ (o : Obj (Ext ℚ)) (x : Fin 2 → ℚ), o.s.xk = some (ev x) ∧ Ex.args1.bnds.Feas Ex.prob1 x := by
  have hare := Ex.argsOf_are (v := fun _ => 0) (Q := [2, 0, 0, 2]) (g := [-2, -2]) (lbL := [1]) (lbR := [0]) (lb := none)
    (ub := none) (x0 := none) rfl rfl rfl rfl (by rintro v ⟨⟩) (by rintro v ⟨⟩) (Or.inl ⟨rfl, rfl⟩)
  obtain ⟨o, hl, hS, hsp, ho, hst⟩ := Ex.setup_of hare (Ex.solver_fin Ex.ans1) (op := Ex.opts) (r0 := 1 / 100) (f := 2)
    (by decide +kernel) (by decide +kernel) (by decide) Ex.load1
  obtain ⟨o', hr, _⟩ := Ex.look_inv hl Ex.look1
  have hB : BoundsAre o Ex.dim ![fin 1, fin 0] (fun _ => pinf) (fun _ => ninf) (fun _ => pinf) := by
    refine ⟨?_, ?_, ?_, ?_⟩
    · rw [hst.lbA]; decide +kernel
    · rw [hst.ubA]; decide +kernel
    · rw [hst.lb]; decide +kernel
    · rw [hst.ub]; decide +kernel
  have h0 : (Ex.heads (Ex.solver Ex.ans1) Ex.opts Ex.args1 0).isSome = true := by decide +kernel
  obtain ⟨⟨d, s⟩, h0⟩ := Option.isSome_iff_exists.mp h0
  obtain ⟨s0, h0, _⟩ := Ex.heads_at hl 0 h0
  refine ⟨o', C27_dense (o := Obj.new Ex.opts 2 0 1) (r0 := 1 / 100) (f := 2) (Built.new _ (by decide)) (Ex.noLow _) rfl rfl hare hl
    (by decide +kernel) (by decide +kernel) (by decide) (Ex.solver_fin _) ?_ rfl hr h0⟩
  intro lA uA l u hb
  obtain ⟨rfl, rfl, rfl, rfl⟩ := hb.unique hB
  exact Ex.exact1.feas

end LCQ
