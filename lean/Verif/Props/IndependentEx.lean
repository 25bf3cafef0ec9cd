import Verif.Props.Independent

/-!
# Runs that satisfy the assumptions of the theorems on C70
-/

namespace LCQ
open Scalar Ext
open scoped Matrix

namespace Ex

/-- a QP solver (either one) for programs with two variables that computes point, constraint multipliers and bound
multipliers from the linear term; those of the bounds are not returned by OSQP -/
def solverI (ans : ℚ → ℚ → List ℚ × List ℚ × List ℚ) : Env (Ext ℚ) := envOf fun _ q =>
  let r := ans (val q.g 0) (val q.g 1)
  match q.sub with
  | .osqp _ _ => good r.1 (r.2.1.map (- ·))
  | _ => good r.1 (r.2.2 ++ r.2.1)

theorem solverI_fin (ans : ℚ → ℚ → List ℚ × List ℚ × List ℚ) : FinAns (solverI ans) := by
  intro k q _ i
  simp only [solverI, envOf]
  split <;> exact ⟨⟨_, rfl⟩, ⟨_, rfl⟩⟩

theorem solverI_exact {ans : ℚ → ℚ → List ℚ × List ℚ × List ℚ} {i j : Nat} {P : Prob ℚ ⟨2, i, j⟩}
    {lA uA : Fin (Dims.nA ⟨2, i, j⟩) → Ext ℚ} {l u : Fin 2 → Ext ℚ}
    (h : ∀ g : Fin 2 → ℚ, ∃ (x : Fin 2 → ℚ) (z : Fin (Dims.nA ⟨2, i, j⟩) → ℚ), ans (g 0) (g 1) = ([x 0, x 1], List.ofFn z, [0, 0]) ∧
      (P.subQp lA uA l u g).Kkt x z 0) : ExactOn (solverI ans) ⟨2, i, j⟩ (IsSub P lA uA l u) := by
  rintro k q _ hq ⟨g, rfl⟩ hok
  obtain ⟨x, z, hans, hk⟩ := h g
  refine ⟨x, z, 0, ?_, hk⟩
  have h0 : val q.g 0 = g 0 := by rw [hq.g]; rfl
  have h1 : val q.g 1 = g 1 := by rw [hq.g]; rfl
  obtain ⟨sub, q2, q3, q4, q5, q6, q7, q8, q9, q10, q11⟩ := q
  dsimp only at h0 h1 hok ⊢
  have hz : ∀ r : Fin (Dims.nA ⟨2, i, j⟩), (List.ofFn z).getD r.1 0 = z r := by
    intro r
    simp [List.getD_eq_getElem?_getD, r.2]
  have hx : ∀ v : List ℚ, ∀ r : Fin 2, (good [x 0, x 1] v).x r.1 = fin (x r) := by
    intro v r
    fin_cases r <;> rfl
  have hw : ∀ r : Fin 2, (good [x 0, x 1] ([0, 0] ++ List.ofFn z)).y r.1 = fin ((0 : Fin 2 → ℚ) r) := by
    intro r
    fin_cases r <;> rfl
  have hy : ∀ r : Fin (Dims.nA ⟨2, i, j⟩), (good [x 0, x 1] ([0, 0] ++ List.ofFn z)).y (2 + r.1) = fin (z r) := by
    intro r
    rw [← hz r]
    simp [good, List.getD_eq_getElem?_getD, Nat.add_comm 2]
  have hn : ∀ r : Fin (Dims.nA ⟨2, i, j⟩), (good [x 0, x 1] ((List.ofFn z).map (- ·))).y r.1 = fin (-z r) := by
    intro r
    rw [← hz r]
    simp [good, List.getD_eq_getElem?_getD, r.2]
  cases sub with
  | dense a b c d =>
    simp only [solverI, envOf, h0, h1, hans]
    exact ⟨hx _, hw, hy⟩
  | sparse a b c d =>
    simp only [solverI, envOf, h0, h1, hans]
    exact ⟨hx _, hw, hy⟩
  | osqp a b =>
    simp only [solverI, envOf, h0, h1, hans]
    exact ⟨hx _, hn, rfl⟩

/-- minimises `x² + y² + g'(x,y)` over `x ≥ 0`, `y ≥ 0`, with multipliers for these constraints followed by zeros -/
def ansI (k : Nat) (a b : ℚ) : List ℚ × List ℚ × List ℚ :=
  ([max 0 (-a/2), max 0 (-b/2)], [2 * max 0 (-a/2) + a, 2 * max 0 (-b/2) + b] ++ List.replicate k 0, [0, 0])

/-- the same with the multipliers exchanged -/
def ansS (a b : ℚ) : List ℚ × List ℚ × List ℚ :=
  ([max 0 (-a/2), max 0 (-b/2)], [2 * max 0 (-b/2) + b, 2 * max 0 (-a/2) + a], [0, 0])

/-- the identity in compressed-column form -/
def sI : CSC ℚ := { m := 2, n := 2, nzmax := 2, p := [0, 1, 2], i := [0, 1], x := [1, 1] }

theorem sI_den : sI.den 2 2 = mat 2 2 [1, 0, 0, 1] := den_ext (by decide +kernel)

/-- `prob5L.withRows`, sparse -/
def argsBox : SparseArgs (Ext ℚ) where
  Q := some sQ.emb
  g := some (emb [-4, -2])
  L := some sL.emb
  R := some sR.emb
  A := some sI.emb
  lbA := some [fin 0, fin 0]
  ubA := some [pinf, pinf]
  lbL := some (emb [0])
  lbR := some (emb [0])
  x0 := some (emb [0, 1])

/-- `prob5L.swap` -/
def argsSwap : DenseArgs (Ext ℚ) where
  Q := some (emb [2, 0, 0, 2])
  g := some (emb [-4, -2])
  L := some (emb [0, 1])
  R := some (emb [1, 0])
  lbL := some (emb [0])
  lbR := some (emb [0])
  x0 := some (emb [0, 1])

/-- options for OSQP -/
def optsBox : Options (Ext ℚ) := { opts5L with qpSolver := 2 }

theorem argsBox_are : argsBox.Are ⟨2, 0 + 2, 1⟩ prob5L.withRows ![0, 1] where
  fits := by
    have hQ : sQ.emb.Is 2 2 := ⟨⟨⟨by decide, by decide, by decide, by decide, by decide, by decide⟩, by decide⟩, rfl, rfl⟩
    have hL : sL.emb.Is 1 2 := ⟨⟨⟨by decide, by decide, by decide, by decide, by decide, by decide⟩, by decide⟩, rfl, rfl⟩
    have hR : sR.emb.Is 1 2 := ⟨⟨⟨by decide, by decide, by decide, by decide, by decide, by decide⟩, by decide⟩, rfl, rfl⟩
    have hA : sI.emb.Is 2 2 := ⟨⟨⟨by decide, by decide, by decide, by decide, by decide, by decide⟩, by decide⟩, rfl, rfl⟩
    refine ⟨⟨_, rfl, hQ⟩, ⟨_, rfl, hL⟩, ⟨_, rfl, hR⟩, ?_, ?_, ?_, ?_, ?_, ?_, ?_, ?_, ?_, ?_, ?_, ?_⟩
    · rintro S ⟨⟩; exact hA
    all_goals (rintro v ⟨⟩ <;> rfl)
  Q := ⟨_, rfl, sQ_den⟩
  g := ⟨_, rfl, by simp, rfl⟩
  A := Or.inr ⟨sI, rfl, by
    refine sI_den.trans ?_
    ext i j
    revert i j
    exact Fin.forall_fin_two.mpr ⟨Fin.forall_fin_two.mpr ⟨rfl, rfl⟩, Fin.forall_fin_two.mpr ⟨rfl, rfl⟩⟩⟩
  L := ⟨_, rfl, sL_sorted, sL_den⟩
  R := ⟨_, rfl, sR_sorted, sR_den⟩
  low := Or.inr ⟨⟨_, rfl, by simp, rfl⟩, _, rfl, by simp, rfl⟩
  x0 := Or.inr ⟨[0, 1], rfl, by decide, by decide +kernel⟩
  tiny := by
    have h : ∀ i j : Fin 2, prob5L.withRows.C i j = if i = j then 0 else 1 := by
      intro i j; fin_cases i <;> fin_cases j <;> decide +kernel
    intro i j
    rw [h]
    split
    · exact Or.inl rfl
    · right; norm_num

theorem argsSwap_are : argsSwap.Are dim prob5L.swap ![0, 1] := by
  refine ⟨⟨⟨_, rfl, by simp [emb]⟩, ⟨_, rfl, by simp [emb]⟩, ⟨_, rfl, by simp [emb]⟩, ?_, ?_, ?_, ?_, ?_, ?_, ?_, ?_, ?_, ?_, ?_, ?_⟩,
    ⟨_, rfl, by simp, rfl⟩, ⟨_, rfl, by simp, rfl⟩, Or.inl ⟨rfl, rfl⟩, ⟨_, rfl, by simp, rfl⟩,
    ⟨_, rfl, by simp, rfl⟩, Or.inr ⟨⟨_, rfl, by simp, rfl⟩, _, rfl, by simp, rfl⟩,
    Or.inr ⟨[0, 1], rfl, by decide, by decide +kernel⟩⟩ <;>
    (rintro v ⟨⟩ <;> simp [emb])

/-- code and point at the end of a run -/
def lookI (e : Env (Ext ℚ)) (l : M (RV × Obj (Ext ℚ))) : Option (RV × RV × Option (List (Ext ℚ))) :=
  match l with
  | .ok (c, o1) => match runSolver e 20 o1 with
    | .ok (some (r, o2)) => some (c, r, o2.s.xk)
    | _ => none
  | _ => none

theorem lookI_inv {e : Env (Ext ℚ)} {l : M (RV × Obj (Ext ℚ))} {c r : RV} {x : Option (List (Ext ℚ))}
    (h : lookI e l = some (c, r, x)) :
    ∃ o1 o2, l = .ok (c, o1) ∧ runSolver e 20 o1 = .ok (some (r, o2)) ∧ o2.s.xk = x := by
  unfold lookI at h
  split at h
  · rename_i c o1
    split at h
    · rename_i r' o2 hr
      injection h with h
      injection h with h1 h
      injection h with h2 h3
      subst h1 h2
      exact ⟨o1, o2, rfl, hr, h3⟩
    · cases h
  · cases h

theorem lookBox : lookI (solverI (ansI 2)) (loadSparse (solverI (ansI 2)) (Obj.new optsBox 2 2 1) argsBox) =
    some (.successfulReturn, .successfulReturn, some (emb [0, 1])) := by
  decide +kernel

theorem lookSwap : lookI (solverI ansS) (loadDense (solverI ansS) (Obj.new opts5L 2 0 1) argsSwap) =
    some (.successfulReturn, .successfulReturn, some (emb [0, 1])) := by
  decide +kernel

theorem AAbox (x : Fin 2 → ℚ) : prob5L.withRows.AA *ᵥ x = ![x 0, x 1, x 0, x 1] := by
  ext i
  change ∑ j : Fin 2, prob5L.withRows.AA i j * x j = _
  rw [Fin.sum_univ_two]
  revert i
  change ∀ i : Fin 4, _
  intro i
  fin_cases i <;> simp [prob, Prob.withRows, Prob.AA, stackRows, mat]

theorem AAbox' (z : Fin 4 → ℚ) : prob5L.withRows.AAᵀ *ᵥ z = ![z 0 + z 2, z 1 + z 3] := by
  ext i
  change ∑ j : Fin 4, prob5L.withRows.AA j i * z j = _
  rw [Fin.sum_univ_four]
  revert i
  change ∀ i : Fin 2, _
  intro i
  fin_cases i <;> simp [prob, Prob.withRows, Prob.AA, stackRows, mat]

theorem AAswap (x : Fin 2 → ℚ) : prob5L.swap.AA *ᵥ x = ![x 1, x 0] := by
  ext i
  change ∑ j : Fin 2, prob5L.swap.AA i j * x j = _
  rw [Fin.sum_univ_two]
  revert i
  change ∀ i : Fin 2, _
  intro i
  fin_cases i <;> simp [prob, Prob.swap, Prob.AA, stackRows, mat]

theorem AAswap' (z : Fin 2 → ℚ) : prob5L.swap.AAᵀ *ᵥ z = ![z 1, z 0] := by
  ext i
  change ∑ j : Fin 2, prob5L.swap.AA j i * z j = _
  rw [Fin.sum_univ_two]
  revert i
  change ∀ i : Fin 2, _
  intro i
  fin_cases i <;> simp [prob, Prob.swap, Prob.AA, stackRows, mat]

/-- the first order conditions of minimising `x² + g x` over `x ≥ 0` -/
theorem max_kkt (g : ℚ) : 0 ≤ max 0 (-g / 2) ∧ 0 ≤ 2 * max 0 (-g / 2) + g ∧ (0 < 2 * max 0 (-g / 2) + g → 0 = max 0 (-g / 2)) := by
  have h1 := le_max_left 0 (-g / 2)
  have h2 := le_max_right 0 (-g / 2)
  refine ⟨h1, by linarith, fun h => ?_⟩
  rcases max_choice 0 (-g / 2) with c | c
  · exact c.symm
  · rw [c] at h
    linarith

theorem exactBox : ExactOn (solverI (ansI 2)) ⟨2, 0 + 2, 1⟩
    (IsSub prob5L.withRows (fun _ => fin 0) (fun _ => pinf) (fun _ => ninf) (fun _ => pinf)) := by
  apply solverI_exact
  intro g
  obtain ⟨h1, h2, h3⟩ := max_kkt (g 0)
  obtain ⟨k1, k2, k3⟩ := max_kkt (g 1)
  refine ⟨![max 0 (-g 0 / 2), max 0 (-g 1 / 2)], ![2 * max 0 (-g 0 / 2) + g 0, 2 * max 0 (-g 1 / 2) + g 1, 0, 0], rfl, ?_⟩
  generalize max 0 (-g 0 / 2) = a at *
  generalize max 0 (-g 1 / 2) = b at *
  refine ⟨⟨fun i => ?_, fun i => rfl, fun i => rfl, fun i => rfl⟩, ?_, fun i => ?_, fun i => ?_,
    fun i h => absurd h (lt_irrefl _), fun i h => absurd h (lt_irrefl _)⟩
  · change (fin 0 <=. fin ((prob5L.withRows.AA *ᵥ ![a, b]) i)) = true
    rw [AAbox]
    revert i
    change ∀ i : Fin 4, _
    intro i
    fin_cases i <;> first | exact decide_eq_true h1 | exact decide_eq_true k1
  · change prob5L.Q *ᵥ ![a, b] + g = prob5L.withRows.AAᵀ *ᵥ _ + 0
    rw [AAbox', add_zero]
    ext i
    refine (congrArg (· + g i) (prob_Q (c := 2) (g := [-4, -2]) (lbL := [0]) (lbR := [0]) ![a, b] i)).trans ?_
    revert i
    refine Fin.forall_fin_two.mpr ⟨?_, ?_⟩ <;> simp
  · change _ → fin 0 = fin ((prob5L.withRows.AA *ᵥ ![a, b]) i)
    rw [AAbox]
    revert i
    change ∀ i : Fin 4, _
    intro i
    fin_cases i
    · exact fun h => congrArg fin (h3 h)
    · exact fun h => congrArg fin (k3 h)
    · exact fun h => absurd h (lt_irrefl _)
    · exact fun h => absurd h (lt_irrefl _)
  · revert i
    change ∀ i : Fin 4, _
    intro i
    fin_cases i
    · exact fun h => absurd h (not_lt.mpr h2)
    · exact fun h => absurd h (not_lt.mpr k2)
    · exact fun h => absurd h (lt_irrefl _)
    · exact fun h => absurd h (lt_irrefl _)

theorem exactSwap : ExactOn (solverI ansS) dim
    (IsSub prob5L.swap (fun _ => fin 0) (fun _ => pinf) (fun _ => ninf) (fun _ => pinf)) := by
  apply solverI_exact
  intro g
  obtain ⟨h1, h2, h3⟩ := max_kkt (g 0)
  obtain ⟨k1, k2, k3⟩ := max_kkt (g 1)
  refine ⟨![max 0 (-g 0 / 2), max 0 (-g 1 / 2)], ![2 * max 0 (-g 1 / 2) + g 1, 2 * max 0 (-g 0 / 2) + g 0], rfl, ?_⟩
  generalize max 0 (-g 0 / 2) = a at *
  generalize max 0 (-g 1 / 2) = b at *
  refine ⟨⟨fun i => ?_, fun i => rfl, fun i => rfl, fun i => rfl⟩, ?_, fun i => ?_, fun i => ?_,
    fun i h => absurd h (lt_irrefl _), fun i h => absurd h (lt_irrefl _)⟩
  · change (fin 0 <=. fin ((prob5L.swap.AA *ᵥ ![a, b]) i)) = true
    rw [AAswap]
    revert i
    exact Fin.forall_fin_two.mpr ⟨decide_eq_true k1, decide_eq_true h1⟩
  · change prob5L.Q *ᵥ ![a, b] + g = prob5L.swap.AAᵀ *ᵥ _ + 0
    rw [AAswap', add_zero]
    ext i
    refine (congrArg (· + g i) (prob_Q (c := 2) (g := [-4, -2]) (lbL := [0]) (lbR := [0]) ![a, b] i)).trans ?_
    revert i
    refine Fin.forall_fin_two.mpr ⟨?_, ?_⟩ <;> simp
  · change _ → fin 0 = fin ((prob5L.swap.AA *ᵥ ![a, b]) i)
    rw [AAswap]
    revert i
    exact Fin.forall_fin_two.mpr ⟨fun h => congrArg fin (k3 h), fun h => congrArg fin (h3 h)⟩
  · revert i
    exact Fin.forall_fin_two.mpr ⟨fun h => absurd h (not_lt.mpr k2), fun h => absurd h (not_lt.mpr h2)⟩

theorem prob5L_pd : ∀ v, v ≠ 0 → 0 < v ⬝ᵥ (prob5L.Q *ᵥ v) := by
  intro v hv
  have hs : v ⬝ᵥ (prob5L.Q *ᵥ v) = 2 * (v 0 * v 0 + v 1 * v 1) := by
    change ∑ i : Fin 2, v i * (prob5L.Q *ᵥ v) i = _
    rw [Fin.sum_univ_two, prob_Q, prob_Q]
    ring
  rw [hs]
  have h0 := mul_self_nonneg (v 0)
  have h1 := mul_self_nonneg (v 1)
  by_contra hc
  refine hv (funext (Fin.forall_fin_two.mpr ⟨?_, ?_⟩))
  · exact mul_self_eq_zero.mp (by linarith)
  · exact mul_self_eq_zero.mp (by linarith)

theorem exact5L : SolvesExactly (solver ans4) dim prob5L args5L.bnds := by
  have e1 : args5L.bnds.rowLo dim = ![fin 0, fin 0] := funext (Fin.forall_fin_two.mpr (by decide +kernel))
  have e2 : args5L.bnds.rowHi dim = fun _ => pinf := funext (Fin.forall_fin_two.mpr (by decide +kernel))
  have e3 : args5L.bnds.boxLo dim = fun _ => ninf := funext (Fin.forall_fin_two.mpr (by decide +kernel))
  have e4 : args5L.bnds.boxHi dim = fun _ => pinf := funext (Fin.forall_fin_two.mpr (by decide +kernel))
  refine ⟨solver_fin _, ?_⟩
  rw [e1, e2, e3, e4]
  exact exact4

theorem exactIn' : SolvesExactly (solver ansIn) dim prob5L argsIn.bnds := by
  have e1 : argsIn.bnds.rowLo dim = ![fin 0, fin 0] := funext (Fin.forall_fin_two.mpr (by decide +kernel))
  have e2 : argsIn.bnds.rowHi dim = fun _ => pinf := funext (Fin.forall_fin_two.mpr (by decide +kernel))
  have e3 : argsIn.bnds.boxLo dim = ![fin 0, fin 0] := funext (Fin.forall_fin_two.mpr (by decide +kernel))
  have e4 : argsIn.bnds.boxHi dim = fun _ => pinf := funext (Fin.forall_fin_two.mpr (by decide +kernel))
  refine ⟨solver_fin _, ?_⟩
  rw [e1, e2, e3, e4]
  exact exactIn

/-- the run of `C68_not_global` is a run of the reference algorithm -/
example : ∃ o o' t, Fresh o dim ∧ Ref.Run (prob5L.ref (args5L.bnds.rowLo dim) (args5L.bnds.rowHi dim) (args5L.bnds.boxLo dim)
    (args5L.bnds.boxHi dim)) parIn 4000 ![0, 1] [] 0 20 (some (.successfulReturn, t)) ∧
    (∃ o1, Loads (solver ans4) o o1 dim prob5L ![0, 1] args5L.bnds ∧
      runSolver (solver ans4) 20 o1 = .ok (some (.successfulReturn, o'))) ∧ Ref.Shows o'.s t := by
  have hx : ArgOpt (some (emb [0, 1])) 2 (![0, 1] : Fin 2 → ℚ) := Or.inr ⟨[0, 1], rfl, by decide, by decide +kernel⟩
  obtain ⟨o1, o2, h1, h2, h3⟩ := loads_of (a := args5L) (v := ![0, 1]) (argsOf_are rfl rfl rfl rfl (by rintro v ⟨⟩)
    (by rintro v ⟨⟩) hx) load5L look5L
  have hf : Fresh (Obj.new opts5L 2 0 1) dim := fresh_new _ (by decide) (by decide)
  obtain ⟨j1, _, j3⟩ := h1.job hf exact5L (r0 := 4000) (by decide +kernel) (parIn_of _) (by decide +kernel)
  obtain ⟨t, k1, k2⟩ := (C70_reference j1 (prob_psd (by decide)).1 (prob_psd (by decide)).2).1 _ _ h2 (Or.inl rfl)
  rw [j3] at k1
  exact ⟨_, o2, t, hf, k1, ⟨o1, h1, h2⟩, k2⟩

/-- the assumptions of `C70_swap` are met by two successful runs -/
example : ∃ o o1 o1' o2 o2', Fresh o dim ∧ Loads (solver ans4) o o1 dim prob5L ![0, 1] args5L.bnds ∧
    Loads (solverI ansS) o o1' dim prob5L.swap ![0, 1] args5L.bnds.swap ∧ SolvesExactly (solver ans4) dim prob5L args5L.bnds ∧
    SolvesExactly (solverI ansS) dim prob5L.swap args5L.bnds.swap ∧ parIn.Of (solver ans4) o.d.opts ∧
    parIn.Of (solverI ansS) o.d.opts ∧ runSolver (solver ans4) 20 o1 = .ok (some (.successfulReturn, o2)) ∧
    runSolver (solverI ansS) 20 o1' = .ok (some (.successfulReturn, o2')) ∧ SameOutcome o2.s o2'.s := by
  have hx : ArgOpt (some (emb [0, 1])) 2 (![0, 1] : Fin 2 → ℚ) := Or.inr ⟨[0, 1], rfl, by decide, by decide +kernel⟩
  obtain ⟨o1, o2, h1, h2, h3⟩ := loads_of (a := args5L) (v := ![0, 1]) (argsOf_are rfl rfl rfl rfl (by rintro v ⟨⟩)
    (by rintro v ⟨⟩) hx) load5L look5L
  have hf : Fresh (Obj.new opts5L 2 0 1) dim := fresh_new _ (by decide) (by decide)
  obtain ⟨o1', o2', k1, k2, k3⟩ := lookI_inv lookSwap
  have k1 : Loads (solverI ansS) (Obj.new opts5L 2 0 1) o1' dim prob5L.swap ![0, 1] args5L.bnds.swap :=
    Or.inl ⟨argsSwap, argsSwap_are, rfl, k1⟩
  have hE : SolvesExactly (solverI ansS) dim prob5L.swap args5L.bnds.swap := by
    have e1 : args5L.bnds.swap.rowLo dim = fun _ => fin 0 := funext (Fin.forall_fin_two.mpr (by decide +kernel))
    have e2 : args5L.bnds.swap.rowHi dim = fun _ => pinf := funext (Fin.forall_fin_two.mpr (by decide +kernel))
    have e3 : args5L.bnds.swap.boxLo dim = fun _ => ninf := funext (Fin.forall_fin_two.mpr (by decide +kernel))
    have e4 : args5L.bnds.swap.boxHi dim = fun _ => pinf := funext (Fin.forall_fin_two.mpr (by decide +kernel))
    refine ⟨solverI_fin _, ?_⟩
    rw [e1, e2, e3, e4]
    exact exactSwap
  have hp : parIn.Of (solverI ansS) (Obj.new opts5L 2 0 1).d.opts := by
    refine ⟨?_, ?_, ?_, ?_, ?_, ?_, ?_, ?_, ?_, rfl⟩ <;> decide +kernel
  refine ⟨_, o1, o1', o2, o2', hf, h1, k1, exact5L, hE, parIn_of _, hp, h2, k2, ?_⟩
  exact (C70_swap hf hf h1 k1 exact5L hE (parIn_of _) hp (r0 := 4000) (by decide +kernel) (by decide +kernel) (by decide +kernel)
    (prob_psd (by decide)).1 prob5L_pd h2 k2 (Or.inl rfl) (Or.inl rfl)).2

/-- The assumptions of `C70_box` are met by two successful runs, one with qpOASES, full matrices and bounds `x, y ≥ 0`, the
other one with OSQP, sparse matrices and the bounds as linear constraints. -/
example : ∃ o o' o1 o1' o2 o2', o.d.opts.qpSolver = 0 ∧ o'.d.opts.qpSolver = 2 ∧ Fresh o dim ∧ Fresh o' ⟨2, 0 + 2, 1⟩ ∧
    Loads (solver ansIn) o o1 dim prob5L ![0, 1] argsIn.bnds ∧
    Loads (solverI (ansI 2)) o' o1' ⟨2, 0 + 2, 1⟩ prob5L.withRows ![0, 1] (argsIn.bnds.withRows 0 2) ∧
    SolvesExactly (solver ansIn) dim prob5L argsIn.bnds ∧
    SolvesExactly (solverI (ansI 2)) ⟨2, 0 + 2, 1⟩ prob5L.withRows (argsIn.bnds.withRows 0 2) ∧
    runSolver (solver ansIn) 20 o1 = .ok (some (.successfulReturn, o2)) ∧
    runSolver (solverI (ansI 2)) 20 o1' = .ok (some (.successfulReturn, o2')) ∧ SameOutcome o2.s o2'.s := by
  have hx : ArgOpt (some (emb [0, 1])) 2 (![0, 1] : Fin 2 → ℚ) := Or.inr ⟨[0, 1], rfl, by decide, by decide +kernel⟩
  obtain ⟨o1, o2, h1, h2, h3⟩ := loads_of (a := argsIn) (v := ![0, 1]) (argsOf_are rfl rfl rfl rfl (by rintro v ⟨⟩; rfl)
    (by rintro v ⟨⟩) hx) rfl lookIn
  have hf : Fresh (Obj.new opts5L 2 0 1) dim := fresh_new _ (by decide) (by decide)
  have hf' : Fresh (Obj.new optsBox 2 2 1) ⟨2, 0 + 2, 1⟩ := fresh_new _ (by decide) (by decide)
  obtain ⟨o1', o2', k1, k2, k3⟩ := lookI_inv lookBox
  have k1 : Loads (solverI (ansI 2)) (Obj.new optsBox 2 2 1) o1' ⟨2, 0 + 2, 1⟩ prob5L.withRows ![0, 1] (argsIn.bnds.withRows 0 2) :=
    Or.inr ⟨argsBox, argsBox_are, rfl, k1⟩
  have hE : SolvesExactly (solverI (ansI 2)) ⟨2, 0 + 2, 1⟩ prob5L.withRows (argsIn.bnds.withRows 0 2) := by
    have e1 : (argsIn.bnds.withRows 0 2).rowLo ⟨2, 0 + 2, 1⟩ = fun _ => fin 0 := by
      funext i; revert i; change ∀ i : Fin 4, _; intro i; fin_cases i <;> decide +kernel
    have e2 : (argsIn.bnds.withRows 0 2).rowHi ⟨2, 0 + 2, 1⟩ = fun _ => pinf := by
      funext i; revert i; change ∀ i : Fin 4, _; intro i; fin_cases i <;> decide +kernel
    have e3 : (argsIn.bnds.withRows 0 2).boxLo ⟨2, 0 + 2, 1⟩ = fun _ => ninf := funext (Fin.forall_fin_two.mpr (by decide +kernel))
    have e4 : (argsIn.bnds.withRows 0 2).boxHi ⟨2, 0 + 2, 1⟩ = fun _ => pinf := funext (Fin.forall_fin_two.mpr (by decide +kernel))
    refine ⟨solverI_fin _, ?_⟩
    rw [e1, e2, e3, e4]
    exact exactBox
  have hp : parIn.Of (solverI (ansI 2)) (Obj.new optsBox 2 2 1).d.opts := by
    refine ⟨?_, ?_, ?_, ?_, ?_, ?_, ?_, ?_, ?_, rfl⟩ <;> decide +kernel
  refine ⟨_, _, o1, o1', o2, o2', rfl, rfl, hf, hf', h1, k1, exactIn', hE, h2, k2, ?_⟩
  exact (C70_box hf hf' h1 k1 exactIn' hE (parIn_of _) hp (r0 := 4000) (by decide +kernel) (by decide +kernel) (by decide +kernel)
    (prob_psd (by decide)).1 prob5L_pd h2 k2 (Or.inl rfl) (Or.inl rfl)).2

end Ex

end LCQ
