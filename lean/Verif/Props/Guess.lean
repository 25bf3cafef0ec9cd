import Verif.Lemmas.Strong
import Verif.Props.Independent

/-!
# C84: what the initial guess is good for
-/

set_option linter.unusedSectionVars false

namespace LCQ
open Scalar Ext
open scoped Matrix

/-! ## the reference algorithm -/

namespace Ref
variable {K : Type} [Field K] [LinearOrder K] [IsStrictOrderedRing K] {m : Nat} {A : Pb K m} {o : Par K}

/-- the state without the last step -/
def noP (t : St K m) : St K m := { t with p := 0 }

/-- `head`, for a state after `move` -/
def rest (A : Pb K m) (o : Par K) (w : St K m) : St K m ⊕ (RV × St K m) :=
  let t := dyn A o w
  if Stat A o w ∧ A.phi t.x < o.complTol then .inr (.successfulReturn, t)
  else
    let u := if Stat A o w then bump o t else t
    if o.maxIter < u.total then .inr (.maxIterationsReached, u)
    else if o.maxRho < u.r then .inr (.maxPenaltyReached, u)
    else .inl u

theorem dyn_noP (w : St K m) : dyn A o (noP w) = noP (dyn A o w) := by
  unfold dyn
  split_ifs <;> first | rfl | contradiction

theorem rest_noP (w : St K m) : rest A o (noP w) = Sum.map noP (Prod.map id noP) (rest A o w) := by
  have hS : Stat A o (noP w) ↔ Stat A o w := Iff.rfl
  have hx : (noP (dyn A o w)).x = (dyn A o w).x := rfl
  unfold rest
  simp only [dyn_noP, hS, hx]
  by_cases h1 : Stat A o w
  · simp only [h1, true_and, if_true]
    have e1 : (bump o (noP (dyn A o w))).total = (bump o (dyn A o w)).total := rfl
    have e2 : (bump o (noP (dyn A o w))).r = (bump o (dyn A o w)).r := rfl
    rw [e1, e2]
    split_ifs <;> rfl
  · simp only [h1, false_and, if_false]
    have e1 : (noP (dyn A o w)).total = (dyn A o w).total := rfl
    have e2 : (noP (dyn A o w)).r = (dyn A o w).r := rfl
    rw [e1, e2]
    split_ifs <;> rfl

theorem head_noP {s s' : St K m} (h : noP (move s) = noP (move s')) :
    Sum.map noP (Prod.map id noP) (head A o s) = Sum.map noP (Prod.map id noP) (head A o s') := by
  change Sum.map noP (Prod.map id noP) (rest A o (move s)) = Sum.map noP (Prod.map id noP) (rest A o (move s'))
  rw [← rest_noP, ← rest_noP, h]

/-- loops from two states that differ in the starting points of the same step -/
theorem loop_noP (hpd : ∀ v, v ≠ 0 → 0 < v ⬝ᵥ (A.Q *ᵥ v)) (hX : ∀ x y, A.X x → A.X y → A.X ((1 / 2 : K) • (x + y)))
    {k k' : Nat} {s s' : St K m} {q q' : RV × St K m} (hs : noP (move s) = noP (move s')) (h : Loop A o k s (some q))
    (h' : Loop A o k' s' (some q')) : q.1 = q'.1 ∧ noP q.2 = noP q'.2 := by
  have hh := head_noP (A := A) (o := o) hs
  cases h with
  | stop h1 =>
    cases h' with
    | stop h2 =>
      rw [h1, h2] at hh
      injection hh with hh
      injection hh with hh1 hh2
      exact ⟨hh1, hh2⟩
    | next h2 _ _ =>
      rw [h1, h2] at hh
      cases hh
  | @next _ _ t v _ h1 h3 h5 =>
    cases h' with
    | stop h2 =>
      rw [h1, h2] at hh
      cases hh
    | @next _ _ t' v' _ h2 h4 h6 =>
      rw [h1, h2] at hh
      injection hh with hh
      have e1 : sub A t = sub A t' := by
        change sub A (noP t) = sub A (noP t')
        rw [hh]
      rw [← e1] at h4
      have e2 : v' = v := isMin_unique hpd hX h4 h3
      subst e2
      have e3 : step A o t v' = step A o t' v' := by
        change step A o (noP t) v' = step A o (noP t') v'
        rw [hh]
      rw [← e3] at h6
      rw [loop_unique hpd hX h5 h6]
      exact ⟨rfl, rfl⟩

/-- C84: in a run that solves the first subproblem without penalty term, the initial guess has no influence -/
theorem C84_run (hpd : ∀ v, v ≠ 0 → 0 < v ⬝ᵥ (A.Q *ᵥ v)) (hX : ∀ x y, A.X x → A.X y → A.X ((1 / 2 : K) • (x + y)))
    (hz : o.zeroFirst = true) {r0 : K} {x0 x0' : Fin m → K} {h0 : List K} {u k k' : Nat} {q q' : RV × St K m}
    (h : Run A o r0 x0 h0 u k (some q)) (h' : Run A o r0 x0' h0 u k' (some q')) : q.1 = q'.1 ∧ noP q.2 = noP q'.2 := by
  obtain ⟨v, h1, h2⟩ := h
  obtain ⟨w, h3, h4⟩ := h'
  have e : first A o r0 x0 = first A o r0 x0' := by simp only [first, hz, if_true]
  rw [← e] at h3
  rw [isMin_unique hpd hX h3 h1] at h4
  refine loop_noP hpd hX ?_ h2 h4
  simp only [noP, move, start, e, one_smul, add_sub_cancel]

/-- the head of the loop takes the step and counts the pass -/
theorem head_keeps (s : St K m) : (∀ t, head A o s = .inl t → t.total = s.total + 1) ∧
    ∀ q, head A o s = .inr q → q.2.total = s.total + 1 ∧ q.2.x = (move s).x := by
  have h0 : (dyn A o (move s)).total = s.total + 1 ∧ (dyn A o (move s)).x = (move s).x := by
    unfold dyn
    split_ifs <;> exact ⟨rfl, rfl⟩
  have h1 : (if Stat A o (move s) then bump o (dyn A o (move s)) else dyn A o (move s)).total = s.total + 1 ∧
      (if Stat A o (move s) then bump o (dyn A o (move s)) else dyn A o (move s)).x = (move s).x := by
    split_ifs <;> exact h0
  simp only [head]
  generalize (if Stat A o (move s) then bump o (dyn A o (move s)) else dyn A o (move s)) = w at h1
  constructor
  · intro t ht
    split_ifs at ht
    injection ht with ht
    rw [← ht]
    exact h1.1
  · intro q hq
    split_ifs at hq <;> (injection hq with hq; rw [← hq])
    · exact h0
    · exact h1
    · exact h1

/-- a run counts its passes -/
theorem loop_total {k : Nat} {s : St K m} {q : RV × St K m} (h : Loop A o k s (some q)) : s.total + 1 ≤ q.2.total := by
  generalize hq : some q = Q at h
  induction h with
  | out => cases hq
  | @stop _ s _ h1 =>
    injection hq with hq
    subst hq
    exact ((head_keeps s).2 _ h1).1.ge
  | @next _ s t _ _ h1 _ _ ih =>
    have h2 := ih hq
    have h3 := (head_keeps s).1 t h1
    change t.total + 1 ≤ _ at h2
    omega

/-- C84: a run that solves the first subproblem with penalty term ends successfully in the initial guess after one pass,
if the initial guess is complementary and solves the first subproblem -/
theorem C84_stay (hpd : ∀ v, v ≠ 0 → 0 < v ⬝ᵥ (A.Q *ᵥ v)) (hX : ∀ x y, A.X x → A.X y → A.X ((1 / 2 : K) • (x + y)))
    (hz : o.zeroFirst = false) (ht : 0 < o.statTol) {r0 : K} {x0 : Fin m → K} (hc : A.phi x0 < o.complTol)
    (hx : IsMin A (first A o r0 x0) x0) {h0 : List K} {u k : Nat} {q : Option (RV × St K m)}
    (h : Run A o r0 x0 h0 u (k + 1) q) : ∃ t, q = some (.successfulReturn, t) ∧ t.x = x0 ∧ t.r = r0 ∧ t.outer = 0 ∧ t.total = 1 := by
  obtain ⟨v, h1, h2⟩ := h
  have e := isMin_unique hpd hX h1 hx
  subst e
  have hmx : (move (start A o r0 v h0 u v)).x = v := by simp [move, start]
  have hS : Stat A o (move (start A o r0 v h0 u v)) := by
    intro i
    have : grad A (move (start A o r0 v h0 u v)) v - (move (start A o r0 v h0 u v)).c = 0 := by
      simp only [grad, hess, lin, move, start, first, hz, lt_irrefl, if_false, Matrix.add_mulVec, Matrix.smul_mulVec]
      simp only [Bool.false_eq_true, if_false]
      abel
    rw [hmx, this]
    simpa using ht
  have hD : (dyn A o (move (start A o r0 v h0 u v))).x = v ∧ (dyn A o (move (start A o r0 v h0 u v))).r = r0 ∧
      (dyn A o (move (start A o r0 v h0 u v))).outer = 0 ∧ (dyn A o (move (start A o r0 v h0 u v))).total = 1 := by
    unfold dyn
    split_ifs with c1 c2 c3
    · exact ⟨hmx, rfl, rfl, rfl⟩
    · exact ⟨hmx, rfl, rfl, rfl⟩
    · exact ⟨hmx, rfl, rfl, rfl⟩
    · exfalso
      rw [hmx] at c3
      exact c3 (Or.inl hc)
  have hH : head A o (start A o r0 v h0 u v) = .inr (.successfulReturn, dyn A o (move (start A o r0 v h0 u v))) := by
    simp only [head]
    rw [if_pos ⟨hS, by rw [hD.1]; exact hc⟩]
  cases h2 with
  | stop h3 =>
    rw [hH] at h3
    injection h3 with h3
    exact ⟨_, by rw [← h3], hD⟩
  | next h3 _ _ =>
    rw [hH] at h3
    cases h3

/-- C84: a run that ends in the initial guess after one pass: the initial guess solves the first subproblem -/
theorem C84_fixed {r0 : K} {x0 : Fin m → K} {h0 : List K} {u k : Nat} {q : RV × St K m}
    (h : Run A o r0 x0 h0 u k (some q)) (ht : q.2.total = 1) (hx : q.2.x = x0) : IsMin A (first A o r0 x0) x0 := by
  obtain ⟨v, h1, h2⟩ := h
  cases h2 with
  | stop h3 =>
    have e : q.2.x = v := by
      rw [((head_keeps _).2 _ h3).2]
      simp [move, start]
    rw [hx] at e
    subst e
    exact h1
  | @next _ _ t w _ h3 _ h4 =>
    exfalso
    have h5 := loop_total h4
    have h6 := (head_keeps _).1 _ h3
    change t.total + 1 ≤ _ at h5
    change t.total = 0 + 1 at h6
    omega

end Ref

/-! ## runs of the solver -/

/-- what two runs have in common that differ in the starting point of the last step only -/
structure SameResult {K : Type} (s s' : St (Ext K)) : Prop where
  x : s.xk = s'.xk
  a : s.alpha = s'.alpha
  r : s.rho = s'.rho
  outer : s.outer = s'.outer
  inner : s.inner = s'.inner
  total : s.total = s'.total
  hist : s.hist = s'.hist
  used : s.rnd = s'.rnd

section
variable {K : Type} [Field K] [LinearOrder K] [IsStrictOrderedRing K] {m i j i' j' : Nat}
  {P : Prob K ⟨m, i, j⟩} {P' : Prob K ⟨m, i', j'⟩} {e e' : Env (Ext K)} {o o' : Obj (Ext K)} {x0 x0' : Fin m → K} {r0 : K}
  {lA uA : Fin (Dims.nA ⟨m, i, j⟩) → Ext K} {lA' uA' : Fin (Dims.nA ⟨m, i', j'⟩) → Ext K} {l u l' u' : Fin m → Ext K}
  {a : Ref.Par K} {h0 : List K}

/-- problems with the same objective, complementarity function and feasible points are the same problem for the reference
algorithm -/
theorem ref_same (hQ : P.Qᵀ = P.Q) (hQ' : P'.Qᵀ = P'.Q) (hobj : ∀ x, P.obj x = P'.obj x) (hphi : ∀ x, P.phi x = P'.phi x)
    (hX : ∀ x, Feasible P lA uA l u x ↔ Feasible P' lA' uA' l' u' x) : P.ref lA uA l u = P'.ref lA' uA' l' u' := by
  obtain ⟨q1, q2⟩ := quad_unique (c := 0) (c' := 0) (h := P.g) (h' := P'.g) hQ hQ' fun x => by
    have := hobj x
    simp only [Prob.obj] at this
    rw [zero_add, zero_add]
    exact this
  obtain ⟨q3, q4⟩ := quad_unique (h := P.gPhi) (h' := P'.gPhi) (c := P.lbL ⬝ᵥ P.lbR) (c' := P'.lbL ⬝ᵥ P'.lbR) P.C_symm P'.C_symm fun x => by
    have := hphi x
    rw [P.phi_eq, P'.phi_eq] at this
    exact this
  simp only [Prob.ref, Ref.Pb.mk.injEq]
  exact ⟨q1, q2, q3, q4, funext hphi, funext fun x => propext (hX x)⟩

/-- C84: two runs as in `C70_same` with different initial guesses.  If the first subproblem is solved without penalty term
(as it is by default), both return the same code, point, penalty parameter and counters: the initial guess has no
influence. -/
theorem C84_unused (hz : a.zeroFirst = true) (hJ : Job e o ⟨m, i, j⟩ P lA uA l u x0 r0 a h0)
    (hJ' : Job e' o' ⟨m, i', j'⟩ P' lA' uA' l' u' x0' r0 a h0) (hQ : P.Qᵀ = P.Q) (hQ' : P'.Qᵀ = P'.Q)
    (hpd : ∀ v, v ≠ 0 → 0 < v ⬝ᵥ (P.Q *ᵥ v)) (hobj : ∀ x, P.obj x = P'.obj x) (hphi : ∀ x, P.phi x = P'.phi x)
    (hX : ∀ x, Feasible P lA uA l u x ↔ Feasible P' lA' uA' l' u' x) (hrnd : o.s.rnd = o'.s.rnd) {fuel fuel' : Nat} {rv rv' : RV}
    {o1 o1' : Obj (Ext K)} (h : runSolver e fuel o = .ok (some (rv, o1))) (h' : runSolver e' fuel' o' = .ok (some (rv', o1')))
    (hown : Ref.Own rv) (hown' : Ref.Own rv') : rv = rv' ∧ SameResult o1.s o1'.s := by
  have hA := ref_same (lA := lA) (uA := uA) (l := l) (u := u) (lA' := lA') (uA' := uA') (l' := l') (u' := u') hQ hQ' hobj hphi hX
  have psd : ∀ v, 0 ≤ v ⬝ᵥ (P.Q *ᵥ v) := by
    intro v
    by_cases hv : v = 0
    · rw [hv]; simp
    · exact (hpd v hv).le
  have q1 : P.Q = P'.Q := congrArg Ref.Pb.Q hA
  obtain ⟨t, h1, h2⟩ := (C70_reference hJ hQ psd).1 _ _ h hown
  obtain ⟨t', h3, h4⟩ := (C70_reference hJ' hQ' (q1 ▸ psd)).1 _ _ h' hown'
  rw [← hA, ← hrnd] at h3
  obtain ⟨e1, e2⟩ := Ref.C84_run (A := P.ref lA uA l u) hpd (fun x y hx hy => feasible_mid hx hy) hz h1 h3
  refine ⟨e1, ?_⟩
  dsimp only at e2
  simp only [Ref.noP, Ref.St.mk.injEq] at e2
  obtain ⟨c1, _, c3, c4, _, c6, c7, c8, c9, c10⟩ := e2
  exact ⟨by rw [h2.x, h4.x, c1], by rw [h2.a, h4.a, c3], by rw [h2.r, h4.r, c4], by rw [h2.outer, h4.outer, c6],
    by rw [h2.inner, h4.inner, c7], by rw [h2.total, h4.total, c8], by rw [h2.hist, h4.hist, c9], by rw [h2.used, h4.used, c10]⟩

/-- C84, for loads: the run of a new object with default choice of the first subproblem does not depend on the initial
guess. -/
theorem C84_loads {o1 o1' : Obj (Ext K)} {b b' : Bnds (Ext K)} (hz : a.zeroFirst = true) (ho : Fresh o ⟨m, i, j⟩) (ho' : Fresh o' ⟨m, i', j'⟩)
    (hl : Loads e o o1 ⟨m, i, j⟩ P x0 b) (hl' : Loads e' o' o1' ⟨m, i', j'⟩ P' x0' b') (he : SolvesExactly e ⟨m, i, j⟩ P b)
    (he' : SolvesExactly e' ⟨m, i', j'⟩ P' b') (ha : a.Of e o.d.opts) (ha' : a.Of e' o'.d.opts) (f0 : a.factor ≠ 0)
    (hr : o.d.opts.rho0 = fin r0) (hr' : o'.d.opts.rho0 = fin r0) (hQ : P.Qᵀ = P.Q) (hQ' : P'.Qᵀ = P'.Q)
    (hpd : ∀ v, v ≠ 0 → 0 < v ⬝ᵥ (P.Q *ᵥ v)) (hobj : ∀ x, P.obj x = P'.obj x) (hphi : ∀ x, P.phi x = P'.phi x)
    (hX : ∀ x, b.Feas P x ↔ b'.Feas P' x) {fuel fuel' : Nat} {rv rv' : RV} {o2 o2' : Obj (Ext K)}
    (h : runSolver e fuel o1 = .ok (some (rv, o2))) (h' : runSolver e' fuel' o1' = .ok (some (rv', o2')))
    (hown : Ref.Own rv) (hown' : Ref.Own rv') : rv = rv' ∧ SameResult o2.s o2'.s := by
  obtain ⟨j1, s1, k1⟩ := hl.job ho he hr ha f0
  obtain ⟨j2, s2, k2⟩ := hl'.job ho' he' hr' ha' f0
  refine C84_unused hz j1 j2 hQ hQ' hpd hobj hphi (fun x => ⟨fun hx => ?_, fun hx => ?_⟩) (k1.trans k2.symm) h h' hown hown'
  · exact s2.feasible j2.bounds ((hX x).mp (s1.feas j1.bounds hx))
  · exact s1.feasible j1.bounds ((hX x).mpr (s2.feas j2.bounds hx))

end

section
variable {K : Type} [Field K] [LinearOrder K] [IsStrictOrderedRing K] {n : Dims} {P : Prob K n} {e : Env (Ext K)}
  {o : Obj (Ext K)} {x0 : Fin n.nV → K} {r0 : K} {lA uA : Fin n.nA → Ext K} {l u : Fin n.nV → Ext K} {a : Ref.Par K}
  {h0 : List K}

/-- the first answer of the QP solver -/
theorem enters_kkt (hJ : Job e o n P lA uA l u x0 r0 a h0) {d : Data (Ext K)} {s0 : St (Ext K)} (h : Enters e o d s0) :
    ∃ v z w, (P.subQp lA uA l u (Ref.first (P.ref lA uA l u) a r0 x0)).Kkt v z w := by
  have hS := hJ.setup
  obtain ⟨off, h1, h2, h3, h4, v, y, sub, la, ua, y0, h5, h6, hs, hla, hua, h7, h8⟩ :=
    enters_x hS.ready hS.holds hS.x0 hS.rho0 hS.ans h
  have hsend := hS.sends hJ.bounds ⟨s0, h, .start⟩
  have hq := hsend.is hs hla hua true (if d.opts.zeroFirst then P.g else r0 • (P.C *ᵥ x0) + P.g) o.s.xk y0
  have hf : (if d.opts.zeroFirst then P.g else r0 • (P.C *ᵥ x0) + P.g) = Ref.first (P.ref lA uA l u) a r0 x0 := by
    rw [h3, hJ.opts.zeroFirst]; rfl
  have := ans_kkt hJ.exact h1 hs hq h7 h8
  rw [hf] at this
  exact ⟨_, _, _, this⟩

/-- C84: a run with a strictly convex objective that solves the first subproblem with penalty term, from a feasible or
infeasible initial guess where each pair has a side at its lower bound.  It ends in the initial guess after one pass
exactly if the initial guess is feasible and S-stationary and the initial penalty parameter outweighs its negative
multipliers; then it is successful and the penalty parameter has not been changed. -/
theorem C84_recognised (hJ : Job e o n P lA uA l u x0 r0 a h0) (hQ : P.Qᵀ = P.Q) (hpd : ∀ v, v ≠ 0 → 0 < v ⬝ᵥ (P.Q *ᵥ v))
    (hz : a.zeroFirst = false) (hst : 0 < a.statTol) (hct : 0 < a.complTol) (hg : P.gPhi = 0) (hs : P.Sides lA uA)
    (hc : ∀ i, (P.L *ᵥ x0 - P.lbL) i = 0 ∨ (P.R *ᵥ x0 - P.lbR) i = 0) {fuel : Nat} {rv : RV} {o1 : Obj (Ext K)}
    (h : runSolver e fuel o = .ok (some (rv, o1))) (hown : Ref.Own rv) :
    ((o1.s.total = some 1 ∧ o1.s.xk = some (ev x0)) ↔
      Feasible P lA uA l u x0 ∧ ∃ z w, P.Strong lA uA l u x0 z w ∧ P.Outweighs r0 x0 z) ∧
    (o1.s.total = some 1 → o1.s.xk = some (ev x0) →
      rv = .successfulReturn ∧ o1.s.outer = some 0 ∧ o1.s.rho = some (fin r0)) := by
  have psd : ∀ v, 0 ≤ v ⬝ᵥ (P.Q *ᵥ v) := by
    intro v
    by_cases hv : v = 0
    · rw [hv]; simp
    · exact (hpd v hv).le
  have hmid : ∀ x y, (P.ref lA uA l u).X x → (P.ref lA uA l u).X y → (P.ref lA uA l u).X ((1 / 2 : K) • (x + y)) :=
    fun x y hx hy => feasible_mid hx hy
  have hfirst : Ref.first (P.ref lA uA l u) a r0 x0 = r0 • (P.C *ᵥ x0) + P.g := by
    simp only [Ref.first, hz, Bool.false_eq_true, if_false]
    rfl
  have hphi : (P.ref lA uA l u).phi x0 < a.complTol := by
    have : P.phi x0 = 0 := by
      rw [Prob.phi, dotProduct]
      refine Finset.sum_eq_zero fun i _ => ?_
      rcases hc i with h | h <;> rw [h] <;> simp
    change P.phi x0 < _
    rw [this]
    exact hct
  obtain ⟨t, h1, h2⟩ := (C70_reference hJ hQ psd).1 _ _ h hown
  have hfuel : ∃ k, fuel = k + 1 := by
    obtain ⟨v, _, h3⟩ := h1
    cases h3 with
    | stop _ => exact ⟨_, rfl⟩
    | next _ _ _ => exact ⟨_, rfl⟩
  obtain ⟨k, rfl⟩ := hfuel
  have hent : ∃ d s0, Enters e o d s0 := by
    obtain ⟨i, hi, ⟨hne, hr⟩ | ⟨hs', hd, hf | ⟨s0, hf, hm⟩⟩⟩ := runSolver_inv h
    · exfalso
      injection hr with hr _
      subst hr
      obtain ⟨_, hc⟩ := initializeSolver_fail hi hne
      rcases hc with hc | hc | hc | hc <;> rw [hc] at hown <;> rcases hown with h | h | h <;> cases h
    · exfalso
      obtain ⟨gk, q, hq, ⟨h1, h2⟩ | ⟨_, _, _, _, _, _, ⟨⟩⟩⟩ := firstStep_inv hf
      injection h2 with h2
      injection h2 with h2 _
      dsimp only at h2
      rw [h2] at hown
      exact h1 (solveQP_own hq hown)
    · exact ⟨_, s0, i, hi, hs', rfl, hf⟩
  have stay : Ref.IsMin (P.ref lA uA l u) (Ref.first (P.ref lA uA l u) a r0 x0) x0 →
      rv = .successfulReturn ∧ t.x = x0 ∧ t.r = r0 ∧ t.outer = 0 ∧ t.total = 1 := by
    intro hx
    obtain ⟨t', e1, e2⟩ := Ref.C84_stay (A := P.ref lA uA l u) hpd hmid hz hst hphi hx h1
    injection e1 with e1
    injection e1 with e1 e3
    subst e3
    exact ⟨e1, e2⟩
  have back : o1.s.total = some 1 → o1.s.xk = some (ev x0) →
      Ref.IsMin (P.ref lA uA l u) (Ref.first (P.ref lA uA l u) a r0 x0) x0 := by
    intro ht hx
    rw [h2.total] at ht
    rw [h2.x] at hx
    injection ht with ht
    injection hx with hx
    exact Ref.C84_fixed h1 ht (ev_inj hx)
  refine ⟨⟨fun ⟨ht, hx⟩ => ?_, fun ⟨hf, z, w, hS, hw⟩ => ?_⟩, fun ht hx => ?_⟩
  · have hm := back ht hx
    obtain ⟨d, s0, he⟩ := hent
    obtain ⟨v, z, w, hk⟩ := enters_kkt hJ he
    have hv : v = x0 := Ref.isMin_unique (A := P.ref lA uA l u) hpd hmid (hk.ref hQ psd).1 hm
    subst hv
    rw [hfirst] at hk
    exact ⟨hm.1, _, _, hk.strong hs hc hg⟩
  · have hk := hS.kkt hs hf hc hg hw
    rw [← hfirst] at hk
    obtain ⟨_, e1, _, _, e2⟩ := stay (hk.ref hQ psd).1
    rw [h2.total, h2.x, e1, e2]
    exact ⟨rfl, rfl⟩
  · obtain ⟨e1, _, e2, e3, _⟩ := stay (back ht hx)
    rw [h2.outer, h2.r, e2, e3]
    exact ⟨e1, rfl, rfl⟩

/-- the bounds of the sides, if no upper bounds are given for them -/
theorem sides_of {b : Bnds (Ext K)} (hs : Stored o n b) (hlow : ArgLow b.lbL b.lbR n.nComp P.lbL P.lbR) (hL : b.ubL = none)
    (hR : b.ubR = none) : P.Sides (b.rowLo n) (b.rowHi n) := by
  obtain ⟨l1, l2, l3, l4, l5, l6⟩ := hs.lens
  have g1 := getD_app3 (c := orFill b.lbR n.nComp (fin 0)) (orFill_len (v := ninf) l1) (orFill_len (v := fin 0) l3)
  have g2 := getD_app3 (c := orFill b.ubR n.nComp pinf) (orFill_len (v := pinf) l2) (orFill_len (v := pinf) l4)
  have rep : ∀ (k : Nat) (v : Ext K) (i : Fin k), (List.replicate k v).getD i nan = v := by
    intro k v i
    simp [List.getD_eq_getElem?_getD, List.getElem?_replicate]
  have vec : ∀ {c : Option (List (Ext K))} {k : Nat} {v : Fin k → K}, ArgVec c k v → ∀ i : Fin k, (orFill c k (fin 0)).getD i nan = fin (v i) := by
    rintro c k v ⟨w, rfl, h1, rfl⟩ i
    have hi : i.1 < w.length := lt_of_lt_of_le i.2 h1
    simp [orFill, List.getD_eq_getElem?_getD, List.getElem?_take, emb, vec, hi]
  refine ⟨fun i h => ?_, fun i h => ?_, fun i h => ?_, fun i h => ?_⟩
  · refine ((g1 i).2.1 i.2).trans ?_
    rcases hlow with ⟨e1, _, e2, _⟩ | ⟨e1, _⟩
    · rw [e1, e2]
      exact rep _ _ i
    · exact vec e1 i
  · refine ((g1 i).2.2).trans ?_
    rcases hlow with ⟨_, e1, _, e2⟩ | ⟨_, e1⟩
    · rw [e1, e2]
      exact rep _ _ i
    · exact vec e1 i
  · refine ((g2 i).2.1 i.2).trans ?_
    rw [hL]
    exact rep _ _ i
  · refine ((g2 i).2.2).trans ?_
    rw [hR]
    exact rep _ _ i

theorem Loads.low {o1 : Obj (Ext K)} {b : Bnds (Ext K)} (h : Loads e o o1 n P x0 b) : ArgLow b.lbL b.lbR n.nComp P.lbL P.lbR := by
  rcases h with ⟨c, hc, rfl, _⟩ | ⟨c, hc, rfl, _⟩
  · exact hc.low
  · exact hc.low

/-- C84, for loads: a run of a new object that solves the first subproblem with penalty term, from an initial guess that
satisfies all constraints, complementarity included.  It ends in the initial guess after one pass exactly if the initial
guess is S-stationary with multipliers that the initial penalty parameter outweighs, and then it is successful. -/
theorem C84_guess {o1 o2 : Obj (Ext K)} {b : Bnds (Ext K)} (ho : Fresh o n) (hl : Loads e o o1 n P x0 b) (he : SolvesExactly e n P b)
    (ha : a.Of e o.d.opts) (f0 : a.factor ≠ 0) (hr : o.d.opts.rho0 = fin r0) (hQ : P.Qᵀ = P.Q)
    (hpd : ∀ v, v ≠ 0 → 0 < v ⬝ᵥ (P.Q *ᵥ v)) (hz : a.zeroFirst = false) (hst : 0 < a.statTol) (hct : 0 < a.complTol)
    (hg : P.gPhi = 0) (hL : b.ubL = none) (hR : b.ubR = none) (hx : b.Solves P x0) {fuel : Nat} {rv : RV}
    (h : runSolver e fuel o1 = .ok (some (rv, o2))) (hown : Ref.Own rv) :
    ((o2.s.total = some 1 ∧ o2.s.xk = some (ev x0)) ↔
      ∃ z w, P.Strong (b.rowLo n) (b.rowHi n) (b.boxLo n) (b.boxHi n) x0 z w ∧ P.Outweighs r0 x0 z) ∧
    (o2.s.total = some 1 → o2.s.xk = some (ev x0) →
      rv = .successfulReturn ∧ o2.s.outer = some 0 ∧ o2.s.rho = some (fin r0)) := by
  obtain ⟨j1, s1, _⟩ := hl.job ho he hr ha f0
  obtain ⟨h1, h2⟩ := C84_recognised j1 hQ hpd hz hst hct hg (sides_of s1 hl.low hL hR) hx.compl h hown
  exact ⟨⟨fun h => (h1.mp h).2, fun h => h1.mpr ⟨s1.feasible j1.bounds hx.feas, h⟩⟩, h2⟩

/-- C84: for every S-stationary point there is a number such that runs that start in this point, solve the first subproblem
with penalty term and have an initial penalty parameter of at least this number return this point after one pass. -/
theorem C84_large {b : Bnds (Ext K)} (hQ : P.Qᵀ = P.Q) (hpd : ∀ v, v ≠ 0 → 0 < v ⬝ᵥ (P.Q *ᵥ v)) (hz : a.zeroFirst = false)
    (hst : 0 < a.statTol) (hct : 0 < a.complTol) (f0 : a.factor ≠ 0) (hg : P.gPhi = 0) (hL : b.ubL = none) (hR : b.ubR = none)
    (hx : b.Solves P x0) {z : Fin n.nA → K} {w : Fin n.nV → K}
    (hS : P.Strong (b.rowLo n) (b.rowHi n) (b.boxLo n) (b.boxHi n) x0 z w) :
    ∃ rs, ∀ r0, rs ≤ r0 → ∀ (e : Env (Ext K)) (o o1 : Obj (Ext K)), Fresh o n → Loads e o o1 n P x0 b → SolvesExactly e n P b →
      a.Of e o.d.opts → o.d.opts.rho0 = fin r0 → ∀ (fuel : Nat) (rv : RV) (o2 : Obj (Ext K)),
      runSolver e fuel o1 = .ok (some (rv, o2)) → Ref.Own rv →
      rv = .successfulReturn ∧ o2.s.xk = some (ev x0) ∧ o2.s.total = some 1 ∧ o2.s.rho = some (fin r0) := by
  by_cases hlow : ArgLow b.lbL b.lbR n.nComp P.lbL P.lbR
  · obtain ⟨rs, hrs⟩ := hS.outweighs fun i => by
      have := C27_products hx.feas hlow (lt_add_one (P.phi x0)) i
      exact ⟨this.1, this.2.1⟩
    refine ⟨rs, fun r0 hr e o o1 ho hl he ha hr0 fuel rv o2 h hown => ?_⟩
    obtain ⟨h1, h2⟩ := C84_guess ho hl he ha f0 hr0 hQ hpd hz hst hct hg hL hR hx h hown
    obtain ⟨h3, h4⟩ := h1.mpr ⟨z, w, hS, hrs r0 hr⟩
    obtain ⟨h5, _, h6⟩ := h2 h3 h4
    exact ⟨h5, h4, h3, h6⟩
  · exact ⟨0, fun _ _ _ _ _ _ hl => absurd hl.low hlow⟩

end

end LCQ
