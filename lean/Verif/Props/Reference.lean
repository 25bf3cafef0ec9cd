import Verif.Lemmas.Reference
import Verif.Props.Enough

/-!
# C70: runs with exactly solved subproblems follow the reference algorithm and do not depend on the QP solver, the storage
format or the way the constraints are written
-/

set_option linter.unusedSectionVars false

namespace LCQ
open Scalar Ext
open scoped Matrix

/-! ## the reference algorithm is deterministic -/

namespace Ref
variable {K : Type} [Field K] [LinearOrder K] [IsStrictOrderedRing K] {m : Nat} {A : Pb K m} {o : Par K}

/-- for a positive definite Hessian and a feasible set with the midpoints of its points, minimisers are unique -/
theorem isMin_unique (hpd : ∀ v, v ≠ 0 → 0 < v ⬝ᵥ (A.Q *ᵥ v)) (hX : ∀ x y, A.X x → A.X y → A.X ((1 / 2 : K) • (x + y)))
    {b v w : Fin m → K} (hv : IsMin A b v) (hw : IsMin A b w) : v = w := by
  by_contra hne
  have hpos := hpd (v - w) (sub_ne_zero.mpr hne)
  have h1 := hv.2 _ (hX v w hv.1 hw.1)
  have h2 := hw.2 _ (hX v w hv.1 hw.1)
  simp only [Matrix.mulVec_smul, Matrix.mulVec_add, Matrix.mulVec_sub, dotProduct_smul, smul_dotProduct, dotProduct_add,
    dotProduct_sub, add_dotProduct, sub_dotProduct, smul_eq_mul] at h1 h2 hpos
  linarith

theorem loop_unique (hpd : ∀ v, v ≠ 0 → 0 < v ⬝ᵥ (A.Q *ᵥ v)) (hX : ∀ x y, A.X x → A.X y → A.X ((1 / 2 : K) • (x + y)))
    {k k' : Nat} {s : St K m} {q q' : RV × St K m} (h : Loop A o k s (some q)) (h' : Loop A o k' s (some q')) : q = q' := by
  generalize hQ : some q = Q at h
  generalize hQ' : some q' = Q' at h'
  induction h generalizing k' with
  | out => cases hQ
  | stop h1 =>
    injection hQ with hQ
    subst hQ
    cases h' with
    | out => cases hQ'
    | stop h2 =>
      injection hQ' with hQ'
      subst hQ'
      rw [h1] at h2
      injection h2
    | next h2 _ _ =>
      rw [h1] at h2
      cases h2
  | next h1 h3 _ ih =>
    cases h' with
    | out => cases hQ'
    | stop h2 =>
      rw [h1] at h2
      cases h2
    | next h2 h4 h5 =>
      rw [h1] at h2
      injection h2 with h2
      subst h2
      rw [isMin_unique hpd hX h4 h3] at h5
      exact ih hQ h5

/-- the result of a run of the reference algorithm is determined by the problem, the options and the starting point -/
theorem run_unique (hpd : ∀ v, v ≠ 0 → 0 < v ⬝ᵥ (A.Q *ᵥ v)) (hX : ∀ x y, A.X x → A.X y → A.X ((1 / 2 : K) • (x + y)))
    {r0 : K} {x0 : Fin m → K} {h0 : List K} {u k k' : Nat} {q q' : RV × St K m} (h : Run A o r0 x0 h0 u k (some q))
    (h' : Run A o r0 x0 h0 u k' (some q')) : q = q' := by
  obtain ⟨v, h1, h2⟩ := h
  obtain ⟨w, h3, h4⟩ := h'
  rw [isMin_unique hpd hX h3 h1] at h4
  exact loop_unique hpd hX h2 h4

end Ref

/-! ## runs of the solver -/

section
variable {K : Type} [Field K] [LinearOrder K] [IsStrictOrderedRing K]

/-- An object that is ready to run: it holds the problem `P` with the given bounds, initial guess `x0`, initial penalty
parameter `r0`, options `a` and stored values `h0` of the complementarity function (none in a new object); successful
calls of its QP solver return exact solutions. -/
structure Job (e : Env (Ext K)) (o : Obj (Ext K)) (n : Dims) (P : Prob K n) (lA uA : Fin n.nA → Ext K)
    (l u : Fin n.nV → Ext K) (x0 : Fin n.nV → K) (r0 : K) (a : Ref.Par K) (h0 : List K) : Prop where
  setup : Setup e o n P x0 r0 a.factor
  bounds : BoundsAre o n lA uA l u
  exact : ExactOn e n (IsSub P lA uA l u)
  opts : a.Of e o.d.opts
  hist : o.s.hist = emb h0
  hlen : a.nDyn = 0 ∨ h0.length ≤ a.nDyn

variable {n : Dims} {P : Prob K n} {e : Env (Ext K)} {o : Obj (Ext K)} {x0 : Fin n.nV → K} {r0 : K}
  {lA uA : Fin n.nA → Ext K} {l u : Fin n.nV → Ext K} {a : Ref.Par K} {h0 : List K}

/-- C70: a run with a convex objective and exactly solved subproblems that is not ended by a failing QP call is a run of
the reference algorithm: it ends with the same code at the same time, in the same point, with the same penalty parameter,
step and counters; and it is still running as long as the reference algorithm is. -/
theorem C70_reference (hJ : Job e o n P lA uA l u x0 r0 a h0) (hQ : P.Qᵀ = P.Q) (hpsd : ∀ v, 0 ≤ v ⬝ᵥ (P.Q *ᵥ v))
    {fuel : Nat} :
    (∀ rv o', runSolver e fuel o = .ok (some (rv, o')) → Ref.Own rv →
      ∃ t, Ref.Run (P.ref lA uA l u) a r0 x0 h0 o.s.rnd fuel (some (rv, t)) ∧ Ref.Shows o'.s t) ∧
    (runSolver e fuel o = .ok none → Ref.Run (P.ref lA uA l u) a r0 x0 h0 o.s.rnd fuel none) := by
  have main : ∀ {d : Data (Ext K)} {s0 : St (Ext K)} {q : Option (RV × St (Ext K))}, Enters e o d s0 →
      mainLoop e d fuel s0 = .ok q → (∀ z, q = some z → Ref.Own z.1) →
      (q = none ∧ Ref.Run (P.ref lA uA l u) a r0 x0 h0 o.s.rnd fuel none) ∨
      ∃ z t', q = some z ∧ Ref.Run (P.ref lA uA l u) a r0 x0 h0 o.s.rnd fuel (some (z.1, t')) ∧ Ref.Shows z.2 t' := by
    intro d s0 q hen hm ho
    obtain ⟨off, v, h1, h2, h3, h4, h5, h6⟩ :=
      enters_sim hJ.setup hJ.bounds hJ.exact hQ hpsd hJ.opts hJ.hist hJ.hlen hen
    rcases h6.loop (Nat.pos_of_ne_zero hJ.setup.ready.nV) h1 h2 h4 hJ.exact hQ hpsd hJ.setup.ans (by rw [h3]; exact hJ.opts)
      hJ.setup.f0 hm ho with ⟨h7, h8⟩ | ⟨z, t', h7, h8, h9⟩
    · exact Or.inl ⟨h7, v, h5, h8⟩
    · exact Or.inr ⟨z, t', h7, ⟨v, h5, h8⟩, h9⟩
  constructor
  · intro rv o' hrun hown
    obtain ⟨i, hi, ⟨hne, hr⟩ | ⟨hs, hd, hf | ⟨s0, hf, hm⟩⟩⟩ := runSolver_inv hrun
    · exfalso
      injection hr with hr _
      subst hr
      obtain ⟨_, hc⟩ := initializeSolver_fail hi hne
      rcases hc with hc | hc | hc | hc <;> rw [hc] at hown <;> rcases hown with h | h | h <;> cases h
    · exfalso
      obtain ⟨gk, q, hq, ⟨h1, h2⟩ | ⟨_, _, _, _, _, _, ⟨⟩⟩⟩ := firstStep_inv hf
      injection h2 with h2
      injection h2 with h2 _
      dsimp only at h2
      rw [h2] at hown
      exact h1 (solveQP_own hq hown)
    · rcases main ⟨i, hi, hs, rfl, hf⟩ hm (fun z hz => by injection hz with hz; rw [← hz]; exact hown) with
        ⟨h7, _⟩ | ⟨z, t', h7, h8, h9⟩
      · cases h7
      · injection h7 with h7
        subst h7
        exact ⟨t', h8, h9⟩
  · intro hrun
    simp only [runSolver, bind_eq_ok] at hrun
    obtain ⟨i, hi, hrun⟩ := hrun
    split at hrun
    · injection hrun with hrun
      cases hrun
    · rename_i hs
      simp only [bind_eq_ok] at hrun
      obtain ⟨r, hr, hrun⟩ := hrun
      cases r with
      | inr q => simp at hrun
      | inl s0 =>
        simp only [bind_eq_ok] at hrun
        obtain ⟨q, hq, hrun⟩ := hrun
        cases q with
        | some q => simp at hrun
        | none =>
          rcases main ⟨i, hi, not_not.mp hs, rfl, hr⟩ hq (by simp) with ⟨_, h8⟩ | ⟨_, _, h7, _⟩
          · exact h8
          · cases h7

/-- the midpoint of two feasible points is feasible -/
theorem feasible_mid {x y : Fin n.nV → K} (hx : Feasible P lA uA l u x) (hy : Feasible P lA uA l u y) :
    Feasible P lA uA l u ((1 / 2 : K) • (x + y)) := by
  have lo : ∀ (b : Ext K) (s t : K), (b <=. fin s) = true → (b <=. fin t) = true → (b <=. fin ((1 / 2 : K) * (s + t))) = true := by
    intro b s t h1 h2
    cases b with
    | fin c =>
      simp only [fin_le, decide_eq_true_eq] at h1 h2 ⊢
      linarith
    | pinf => exact h1
    | ninf => exact h1
    | nan => exact h1
  have hi : ∀ (b : Ext K) (s t : K), (fin s <=. b) = true → (fin t <=. b) = true → (fin ((1 / 2 : K) * (s + t)) <=. b) = true := by
    intro b s t h1 h2
    cases b with
    | fin c =>
      simp only [fin_le, decide_eq_true_eq] at h1 h2 ⊢
      linarith
    | pinf => exact h1
    | ninf => exact h1
    | nan => exact h1
  have hA : ∀ i, (P.AA *ᵥ ((1 / 2 : K) • (x + y))) i = (1 / 2 : K) * ((P.AA *ᵥ x) i + (P.AA *ᵥ y) i) := by
    intro i
    rw [Matrix.mulVec_smul, Matrix.mulVec_add]
    rfl
  refine ⟨fun i => ?_, fun i => ?_, fun i => lo _ _ _ (hx.l i) (hy.l i), fun i => hi _ _ _ (hx.u i) (hy.u i)⟩
  · change (lA i <=. fin ((P.AA *ᵥ _) i)) = true
    rw [hA]
    exact lo _ _ _ (hx.lA i) (hy.lA i)
  · change (fin ((P.AA *ᵥ _) i) <=. uA i) = true
    rw [hA]
    exact hi _ _ _ (hx.uA i) (hy.uA i)

/-- the coefficients of a quadratic function are determined by its values -/
theorem quad_unique {m : Nat} {B B' : Matrix (Fin m) (Fin m) K} {h h' : Fin m → K} {c c' : K} (hB : Bᵀ = B) (hB' : B'ᵀ = B')
    (he : ∀ x, c + h ⬝ᵥ x + x ⬝ᵥ (B *ᵥ x) / 2 = c' + h' ⬝ᵥ x + x ⬝ᵥ (B' *ᵥ x) / 2) : B = B' ∧ h = h' := by
  have h0 : c = c' := by simpa using he 0
  subst h0
  have h1 : ∀ x, h ⬝ᵥ x = h' ⬝ᵥ x := by
    intro x
    have p := he x
    have q := he (-x)
    simp only [Matrix.mulVec_neg, dotProduct_neg, neg_dotProduct, neg_neg] at q
    linarith
  have h2 : ∀ x, x ⬝ᵥ (B *ᵥ x) = x ⬝ᵥ (B' *ᵥ x) := by
    intro x
    have := he x
    rw [h1] at this
    linarith
  have sy : ∀ {B : Matrix (Fin m) (Fin m) K}, Bᵀ = B → ∀ v w : Fin m → K, v ⬝ᵥ (B *ᵥ w) = w ⬝ᵥ (B *ᵥ v) := by
    intro B hB v w
    rw [Matrix.dotProduct_mulVec, ← Matrix.mulVec_transpose, hB, dotProduct_comm]
  constructor
  · ext i j
    have := h2 (Pi.single i 1 + Pi.single j 1)
    simp only [Matrix.mulVec_add, add_dotProduct, dotProduct_add] at this
    rw [h2 (Pi.single i 1), h2 (Pi.single j 1), sy hB (Pi.single j 1) (Pi.single i 1),
      sy hB' (Pi.single j 1) (Pi.single i 1)] at this
    have h3 : (Pi.single i (1 : K) : Fin m → K) ⬝ᵥ (B *ᵥ Pi.single j 1) = Pi.single i 1 ⬝ᵥ (B' *ᵥ Pi.single j 1) := by linarith
    simpa using h3
  · funext i
    have := h1 (Pi.single i 1)
    simpa using this

/-- what two runs have in common: point, step, step length, penalty parameter, counters, stored values of the
complementarity function and random numbers -/
structure SameOutcome (s s' : St (Ext K)) : Prop where
  x : s.xk = s'.xk
  p : s.pk = s'.pk
  a : s.alpha = s'.alpha
  r : s.rho = s'.rho
  outer : s.outer = s'.outer
  inner : s.inner = s'.inner
  total : s.total = s'.total
  hist : s.hist = s'.hist
  used : s.rnd = s'.rnd

theorem Ref.Shows.same {s s' : LCQ.St (Ext K)} {m : Nat} {t : Ref.St K m} (h : Ref.Shows s t) (h' : Ref.Shows s' t) :
    SameOutcome s s' :=
  ⟨h.x.trans h'.x.symm, h.p.trans h'.p.symm, h.a.trans h'.a.symm, h.r.trans h'.r.symm, h.outer.trans h'.outer.symm,
    h.inner.trans h'.inner.symm, h.total.trans h'.total.symm, h.hist.trans h'.hist.symm, h.used.trans h'.used.symm⟩

end

section
variable {K : Type} [Field K] [LinearOrder K] [IsStrictOrderedRing K] {m i j i' j' : Nat}
  {P : Prob K ⟨m, i, j⟩} {P' : Prob K ⟨m, i', j'⟩} {e e' : Env (Ext K)} {o o' : Obj (Ext K)} {x0 : Fin m → K} {r0 : K}
  {lA uA : Fin (Dims.nA ⟨m, i, j⟩) → Ext K} {lA' uA' : Fin (Dims.nA ⟨m, i', j'⟩) → Ext K} {l u l' u' : Fin m → Ext K}
  {a : Ref.Par K} {h0 : List K}

/-- C70: two runs for problems with the same strictly convex objective, the same complementarity function and the same
set of points that satisfy the linear constraints and bounds, from the same initial guess and with the same options.  The
problems may have different numbers of constraints, be written in different order, be stored densely or sparsely, have
bounds on the variables or the corresponding linear constraints, and be solved by different QP solvers that return
different multipliers.  Unless a QP call fails, both runs return the same code, the same point, penalty parameter, step
and counters. -/
theorem C70_same (hJ : Job e o ⟨m, i, j⟩ P lA uA l u x0 r0 a h0) (hJ' : Job e' o' ⟨m, i', j'⟩ P' lA' uA' l' u' x0 r0 a h0)
    (hQ : P.Qᵀ = P.Q) (hQ' : P'.Qᵀ = P'.Q) (hpd : ∀ v, v ≠ 0 → 0 < v ⬝ᵥ (P.Q *ᵥ v))
    (hobj : ∀ x, P.obj x = P'.obj x) (hphi : ∀ x, P.phi x = P'.phi x)
    (hX : ∀ x, Feasible P lA uA l u x ↔ Feasible P' lA' uA' l' u' x) (hrnd : o.s.rnd = o'.s.rnd) {fuel fuel' : Nat} {rv rv' : RV}
    {o1 o1' : Obj (Ext K)} (h : runSolver e fuel o = .ok (some (rv, o1))) (h' : runSolver e' fuel' o' = .ok (some (rv', o1')))
    (hown : Ref.Own rv) (hown' : Ref.Own rv') : rv = rv' ∧ SameOutcome o1.s o1'.s := by
  have hpsd : ∀ v, 0 ≤ v ⬝ᵥ (P.Q *ᵥ v) := by
    intro v
    by_cases hv : v = 0
    · rw [hv]; simp
    · exact (hpd v hv).le
  obtain ⟨q1, q2⟩ := quad_unique (c := 0) (c' := 0) (h := P.g) (h' := P'.g) hQ hQ' fun x => by
    have := hobj x
    simp only [Prob.obj] at this
    rw [zero_add, zero_add]
    exact this
  obtain ⟨q3, q4⟩ := quad_unique (h := P.gPhi) (h' := P'.gPhi) (c := P.lbL ⬝ᵥ P.lbR) (c' := P'.lbL ⬝ᵥ P'.lbR) P.C_symm P'.C_symm fun x => by
    have := hphi x
    rw [P.phi_eq, P'.phi_eq] at this
    exact this
  have hpsd' : ∀ v, 0 ≤ v ⬝ᵥ (P'.Q *ᵥ v) := by rw [← q1]; exact hpsd
  have hA : P.ref lA uA l u = P'.ref lA' uA' l' u' := by
    simp only [Prob.ref, Ref.Pb.mk.injEq]
    exact ⟨q1, q2, q3, q4, funext hphi, funext fun x => propext (hX x)⟩
  obtain ⟨t, h1, h2⟩ := (C70_reference hJ hQ hpsd).1 _ _ h hown
  obtain ⟨t', h3, h4⟩ := (C70_reference hJ' hQ' hpsd').1 _ _ h' hown'
  rw [← hA, ← hrnd] at h3
  have := Ref.run_unique (A := P.ref lA uA l u) hpd (fun x y hx hy => feasible_mid hx hy) h1 h3
  injection this with this1 this2
  subst this1 this2
  exact ⟨rfl, h2.same h4⟩

end

end LCQ
