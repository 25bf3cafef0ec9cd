import Verif.Props.Local

/-!
# C69: symmetries of the problem are symmetries of all iterates
-/

set_option linter.unusedSectionVars false

namespace LCQ
open Scalar Ext
open scoped Matrix

variable {K : Type} [Field K] [LinearOrder K] [IsStrictOrderedRing K] {n : Dims} {P : Prob K n} {e : Env (Ext K)}
  {o : Obj (Ext K)} {x0 : Fin n.nV → K} {r0 f : K} {d : Data (Ext K)} {lA uA : Fin n.nA → Ext K} {l u : Fin n.nV → Ext K}

/-- A symmetry of the program: a linear map that keeps points feasible and changes neither the objective nor the
complementarity violation. -/
structure Prob.Sym (P : Prob K n) (lA uA : Fin n.nA → Ext K) (l u : Fin n.nV → Ext K) (S : Matrix (Fin n.nV) (Fin n.nV) K) :
    Prop where
  feas : ∀ x, Feasible P lA uA l u x → Feasible P lA uA l u (S *ᵥ x)
  obj : ∀ x, P.obj (S *ᵥ x) = P.obj x
  phi : ∀ x, P.phi (S *ᵥ x) = P.phi x

/-- a function `c + h'x + x'Bx/2` with symmetric `B` that is invariant under `S` has an invariant linear term, and the
gradient of the quadratic term at a fixed point is invariant -/
theorem sym_parts {m : Nat} {B S : Matrix (Fin m) (Fin m) K} (hB : Bᵀ = B) {h : Fin m → K}
    (hs : ∀ x, h ⬝ᵥ (S *ᵥ x) + (S *ᵥ x) ⬝ᵥ (B *ᵥ (S *ᵥ x)) / 2 = h ⬝ᵥ x + x ⬝ᵥ (B *ᵥ x) / 2) :
    (∀ x, h ⬝ᵥ (S *ᵥ x) = h ⬝ᵥ x) ∧ (∀ x, (S *ᵥ x) ⬝ᵥ (B *ᵥ (S *ᵥ x)) = x ⬝ᵥ (B *ᵥ x)) ∧
      ∀ x y, S *ᵥ x = x → (B *ᵥ x) ⬝ᵥ (S *ᵥ y) = (B *ᵥ x) ⬝ᵥ y := by
  have h1 : ∀ x, h ⬝ᵥ (S *ᵥ x) = h ⬝ᵥ x := by
    intro x
    have a := hs x
    have b := hs (-x)
    simp only [Matrix.mulVec_neg, dotProduct_neg, neg_dotProduct, neg_neg] at b
    linarith
  have h2 : ∀ x, (S *ᵥ x) ⬝ᵥ (B *ᵥ (S *ᵥ x)) = x ⬝ᵥ (B *ᵥ x) := by
    intro x
    have a := hs x
    rw [h1] at a
    linarith
  refine ⟨h1, h2, fun x y hx => ?_⟩
  have sy : ∀ v w : Fin m → K, v ⬝ᵥ (B *ᵥ w) = w ⬝ᵥ (B *ᵥ v) := by
    intro v w
    rw [Matrix.dotProduct_mulVec, ← Matrix.mulVec_transpose, hB, dotProduct_comm]
  have a := h2 (x + y)
  rw [Matrix.mulVec_add, hx] at a
  simp only [Matrix.mulVec_add, add_dotProduct, dotProduct_add] at a
  rw [h2 y, sy x (S *ᵥ y), sy x y] at a
  rw [dotProduct_comm, dotProduct_comm _ y]
  linarith

/-- the solution of a subproblem at a fixed point of the symmetry is a fixed point -/
theorem sym_solution {S : Matrix (Fin n.nV) (Fin n.nV) K} (hsym : P.Sym lA uA l u S) (hQ : P.Qᵀ = P.Q)
    (hpd : ∀ v, v ≠ 0 → 0 < v ⬝ᵥ (P.Q *ᵥ v)) {G v w : Fin n.nV → K} {z : Fin n.nA → K}
    (hG : ∀ y, G ⬝ᵥ (S *ᵥ y) = G ⬝ᵥ y) (hk : (P.subQp lA uA l u G).Kkt v z w) : S *ᵥ v = v := by
  obtain ⟨h1, h2, _⟩ := sym_parts hQ (h := P.g) hsym.obj
  have hf := hsym.feas v (feas_any hk.feas)
  have hvi := hk.vi (y := S *ᵥ v) ⟨hf.lA, hf.uA, hf.l, hf.u⟩
  by_contra hne
  have hpos := hpd (S *ᵥ v - v) (sub_ne_zero.mpr hne)
  have sy : v ⬝ᵥ (P.Q *ᵥ (S *ᵥ v)) = (S *ᵥ v) ⬝ᵥ (P.Q *ᵥ v) := by
    rw [Matrix.dotProduct_mulVec, ← Matrix.mulVec_transpose, hQ, dotProduct_comm]
  have h2v := h2 v
  have hGv := hG v
  simp only [Qp.grad, Prob.subQp, Matrix.mulVec_sub, sub_dotProduct, dotProduct_sub, add_dotProduct] at hvi hpos
  rw [dotProduct_comm (P.Q *ᵥ v), dotProduct_comm (P.Q *ᵥ v) v] at hvi
  linarith

/-- the linear term of a subproblem at a fixed point is invariant -/
theorem sym_lin {S : Matrix (Fin n.nV) (Fin n.nV) K} (hsym : P.Sym lA uA l u S) (hQ : P.Qᵀ = P.Q) (r : K) (b : Bool)
    {x : Fin n.nV → K} (hx : S *ᵥ x = x) (y : Fin n.nV → K) :
    (P.g + r • P.linPhi b x) ⬝ᵥ (S *ᵥ y) = (P.g + r • P.linPhi b x) ⬝ᵥ y := by
  obtain ⟨h1, _, _⟩ := sym_parts hQ (h := P.g) hsym.obj
  obtain ⟨h2, _, h3⟩ := sym_parts P.C_symm (h := P.gPhi) (S := S) (fun x => by
    have := hsym.phi x
    rw [P.phi_eq, P.phi_eq] at this
    linarith)
  have h4 : P.linPhi b x ⬝ᵥ (S *ᵥ y) = P.linPhi b x ⬝ᵥ y := by
    cases b
    · exact h3 x y hx
    · simp only [Prob.linPhi, if_true, P.gradPhi_eq, add_dotProduct]
      rw [h3 x y hx, h2]
  rw [add_dotProduct, add_dotProduct, smul_dotProduct, smul_dotProduct, h1, h4]

/-- the next iterate is a fixed point of the symmetry -/
theorem head_sym (hS : Setup e o n P x0 r0 f) (hB : BoundsAre o n lA uA l u) (hE : ExactOn e n (IsSub P lA uA l u))
    (hper : o.d.opts.perturb = false) (hQ : P.Qᵀ = P.Q) (hpd : ∀ v, v ≠ 0 → 0 < v ⬝ᵥ (P.Q *ᵥ v))
    {S : Matrix (Fin n.nV) (Fin n.nV) K} (hsym : P.Sym lA uA l u S) (hx0 : o.d.opts.zeroFirst = true ∨ S *ᵥ x0 = x0)
    {s : St (Ext K)} (h : AtHead e o d s) :
    ∃ (x p : Fin n.nV → K) (a : K), s.xk = some (ev x) ∧ s.pk = some (ev p) ∧ s.alpha = some (fin a) ∧
      S *ᵥ (x + a • p) = x + a • p := by
  obtain ⟨s0, h0, h⟩ := h
  have sol : ∀ {c : Nat} {q : Req (Ext K)} {G v : Fin n.nV → K}, q.Is n (P.subQp lA uA l u G) → QpOk q.sub (e.qp c q) →
      (∀ i : Fin n.nV, (e.qp c q).x i = fin (v i)) → (∀ y, G ⬝ᵥ (S *ᵥ y) = G ⬝ᵥ y) → S *ᵥ v = v := by
    intro c q G v hq hok hv hG
    obtain ⟨v', z, w, ⟨hv', _⟩, hk⟩ := hE _ _ _ hq ⟨_, rfl⟩ hok
    have e7 : v' = v := by
      ext i
      have := (hv' i).symm.trans (hv i)
      injection this
    subst e7
    exact sym_solution hsym hQ hpd hG hk
  induction h with
  | start =>
    obtain ⟨q, v, hq, _, hok, hv, hx, hp, ha, _⟩ := C48_first hS hB h0
    refine ⟨x0, v - x0, 1, hx, hp, ha, ?_⟩
    rw [one_smul, add_sub_cancel]
    refine sol hq hok hv fun y => ?_
    rcases hx0 with hz | hz
    · rw [if_pos hz]
      exact (sym_parts hQ (h := P.g) hsym.obj).1 y
    · split
      · exact (sym_parts hQ (h := P.g) hsym.obj).1 y
      · exact sym_lin hsym hQ r0 false hz y
  | @pass t t' hr hp ih =>
    obtain ⟨x, p, a, h1, h2, h3, h4⟩ := ih
    obtain ⟨q, xs, ps, v, a', r, b, e1, e2, e3, _, _, hq, _, hok, hv, hpk, hxk⟩ := C48_next hS hB ⟨s0, h0, hr⟩ hp
    rw [e1] at h1
    rw [e2] at h2
    rw [e3] at h3
    have h1 : xs = x := ev_inj (Option.some.inj h1)
    have h2 : ps = p := ev_inj (Option.some.inj h2)
    have h3 : a' = a := by injection h3 with h3; injection h3
    subst h1 h2 h3
    obtain ⟨a2, ha2, p2, l2⟩ := C26_range hS ⟨s0, h0, .pass hr hp⟩
    refine ⟨_, _, a2, hxk.1 hper, hpk, ha2, ?_⟩
    have hv' := sol hq hok hv fun y => sym_lin hsym hQ r b h4 y
    rw [Matrix.mulVec_add, Matrix.mulVec_smul, Matrix.mulVec_sub, h4, hv']

/-- C69: symmetries are kept.  If the program has a symmetry `S`, the objective is strictly convex, subproblems are solved
exactly, the perturbation is off and the first subproblem is the one without penalty term (or the initial guess is a
fixed point of `S`), then the point left by a run is a fixed point of `S`, whatever the return code and the other options
are. -/
theorem C69_symmetric (hS : Setup e o n P x0 r0 f) (hB : BoundsAre o n lA uA l u) (hE : ExactOn e n (IsSub P lA uA l u))
    (hper : o.d.opts.perturb = false) (hQ : P.Qᵀ = P.Q) (hpd : ∀ v, v ≠ 0 → 0 < v ⬝ᵥ (P.Q *ᵥ v))
    {S : Matrix (Fin n.nV) (Fin n.nV) K} (hsym : P.Sym lA uA l u S) (hx0 : o.d.opts.zeroFirst = true ∨ S *ᵥ x0 = x0)
    {fuel : Nat} {rv : RV} {o' : Obj (Ext K)} (h : runSolver e fuel o = .ok (some (rv, o'))) {s0 : St (Ext K)}
    (h0 : Enters e o d s0) : ∃ x, o'.s.xk = some (ev x) ∧ S *ᵥ x = x := by
  obtain ⟨_, s, hs, hp⟩ := run_end h h0
  obtain ⟨x, p, a, h1, h2, h3, h4⟩ := head_sym hS hB hE hper hQ hpd hsym hx0 hs
  obtain ⟨xs, ps, a', e1, e2, e3, hx⟩ := pass_end hS hs hp
  rw [e1] at h1
  rw [e2] at h2
  rw [e3] at h3
  have h1 : xs = x := ev_inj (Option.some.inj h1)
  have h2 : ps = p := ev_inj (Option.some.inj h2)
  have h3 : a' = a := by injection h3 with h3; injection h3
  subst h1 h2 h3
  exact ⟨_, hx, h4⟩

/-- C69: consequently a run cannot succeed if no feasible fixed point of a symmetry is complementary up to the
tolerance. -/
theorem C69_never (hS : Setup e o n P x0 r0 f) (hB : BoundsAre o n lA uA l u) (hE : ExactOn e n (IsSub P lA uA l u))
    (hper : o.d.opts.perturb = false) (hQ : P.Qᵀ = P.Q) (hpd : ∀ v, v ≠ 0 → 0 < v ⬝ᵥ (P.Q *ᵥ v))
    {S : Matrix (Fin n.nV) (Fin n.nV) K} (hsym : P.Sym lA uA l u S) (hx0 : o.d.opts.zeroFirst = true ∨ S *ᵥ x0 = x0)
    {ts tc : K} (hts : o.d.opts.statTol = fin ts) (htc : o.d.opts.complTol = fin tc)
    (hno : ∀ x, Feasible P lA uA l u x → S *ᵥ x = x → tc ≤ P.phi x) (fuel : Nat) (o' : Obj (Ext K)) :
    runSolver e fuel o ≠ .ok (some (.successfulReturn, o')) := by
  intro h
  obtain ⟨x1, h1, f1⟩ := C27_success hS hB hE.feas hper h
  obtain ⟨x2, h2, f2⟩ := C20_complementary hS hts htc h
  obtain ⟨s, ⟨s0, h0, _⟩, _⟩ := run_last h
  obtain ⟨x3, h3, f3⟩ := C69_symmetric hS hB hE hper hQ hpd hsym hx0 h h0
  rw [h1] at h2 h3
  have e1 : x1 = x2 := ev_inj (Option.some.inj h2)
  have e2 : x1 = x3 := ev_inj (Option.some.inj h3)
  subst e1 e2
  exact absurd f2 (not_lt.mpr (hno _ f1 f3))

/-! ## a program that is never solved without perturbation -/

namespace Ex

/-- dimensions of this example -/
abbrev dim6 : Dims := ⟨2, 1, 1⟩

/-- `min (x² + y²) / 2` subject to `x + y = 1`, `0 ≤ x ⟂ y ≥ 0` -/
def prob6 : Prob ℚ dim6 where
  Q := mat 2 2 [1, 0, 0, 1]
  g := vec 2 [0, 0]
  A := mat 1 2 [1, 1]
  L := mat 1 2 [1, 0]
  R := mat 1 2 [0, 1]
  lbL := vec 1 [0]
  lbR := vec 1 [0]

/-- its arguments -/
def args6 : DenseArgs (Ext ℚ) where
  Q := some (emb [1, 0, 0, 1])
  g := some (emb [0, 0])
  L := some (emb [1, 0])
  R := some (emb [0, 1])
  lbL := some (emb [0])
  lbR := some (emb [0])
  A := some (emb [1, 1])
  lbA := some (emb [1])
  ubA := some (emb [1])

theorem args6_are : args6.Are dim6 prob6 0 := by
  refine ⟨⟨⟨_, rfl, by simp [emb]⟩, ⟨_, rfl, by simp [emb]⟩, ⟨_, rfl, by simp [emb]⟩, ?_, ?_, ?_, ?_, ?_, ?_, ?_, ?_, ?_, ?_, ?_, ?_⟩,
    ⟨_, rfl, by simp, rfl⟩, ⟨_, rfl, by simp, rfl⟩, Or.inr ⟨_, rfl, by simp, rfl⟩, ⟨_, rfl, by simp, rfl⟩,
    ⟨_, rfl, by simp, rfl⟩, Or.inr ⟨⟨_, rfl, by simp, rfl⟩, _, rfl, by simp, rfl⟩, Or.inl ⟨rfl, rfl⟩⟩ <;>
    (rintro v ⟨⟩ <;> simp [emb])

/-- exchanging the two variables -/
def swap : Matrix (Fin 2) (Fin 2) ℚ := mat 2 2 [0, 1, 1, 0]

theorem swap_at (x : Fin 2 → ℚ) : swap *ᵥ x = ![x 1, x 0] := by
  ext i
  change ∑ j : Fin 2, swap i j * x j = _
  revert i
  refine Fin.forall_fin_two.mpr ⟨?_, ?_⟩ <;> rw [Fin.sum_univ_two] <;> simp [swap, mat]

theorem obj6 (x : Fin 2 → ℚ) : prob6.obj x = (x 0 * x 0 + x 1 * x 1) / 2 := by
  change ∑ i : Fin 2, prob6.g i * x i + (∑ i : Fin 2, x i * ∑ j : Fin 2, prob6.Q i j * x j) / 2 = _
  simp only [Fin.sum_univ_two]
  simp [prob6, mat, vec]

theorem phi6 (x : Fin 2 → ℚ) : prob6.phi x = x 0 * x 1 := by
  change ∑ i : Fin 1, (∑ j : Fin 2, prob6.L i j * x j - prob6.lbL i) * (∑ j : Fin 2, prob6.R i j * x j - prob6.lbR i) = _
  simp only [Fin.sum_univ_two, Fin.sum_univ_one]
  simp [prob6, mat, vec]

theorem AA6 (x : Fin 2 → ℚ) : prob6.AA *ᵥ x = ![x 0 + x 1, x 0, x 1] := by
  ext i
  change ∑ j : Fin 2, prob6.AA i j * x j = _
  rw [Fin.sum_univ_two]
  revert i
  change ∀ i : Fin 3, _
  intro i
  fin_cases i <;> simp [prob6, Prob.AA, stackRows, mat]

/-- stored bounds of the linear constraints -/
abbrev lA6 : Fin 3 → Ext ℚ := ![fin 1, fin 0, fin 0]

/-- stored bounds of the linear constraints -/
abbrev uA6 : Fin 3 → Ext ℚ := ![fin 1, pinf, pinf]

theorem feas6 (x : Fin 2 → ℚ) : Feasible prob6 lA6 uA6 (fun _ => ninf) (fun _ => pinf) x ↔
    x 0 + x 1 = 1 ∧ 0 ≤ x 0 ∧ 0 ≤ x 1 := by
  constructor
  · rintro ⟨h1, h2, _, _⟩
    have h1 : ∀ i : Fin 3, (lA6 i <=. fin ((prob6.AA *ᵥ x) i)) = true := h1
    have h2 : ∀ i : Fin 3, (fin ((prob6.AA *ᵥ x) i) <=. uA6 i) = true := h2
    rw [AA6] at h1 h2
    have a1 := h1 (0 : Fin 3)
    have a2 := h2 (0 : Fin 3)
    have a3 := h1 (1 : Fin 3)
    have a4 := h1 (2 : Fin 3)
    have a1 : (1 : ℚ) ≤ x 0 + x 1 := of_decide_eq_true a1
    have a2 : x 0 + x 1 ≤ 1 := of_decide_eq_true a2
    exact ⟨le_antisymm a2 a1, of_decide_eq_true a3, of_decide_eq_true a4⟩
  · rintro ⟨h1, h2, h3⟩
    refine ⟨?_, ?_, fun _ => rfl, fun _ => rfl⟩
    · change ∀ i : Fin 3, (lA6 i <=. fin ((prob6.AA *ᵥ x) i)) = true
      rw [AA6]
      intro i
      fin_cases i
      · exact decide_eq_true h1.ge
      · exact decide_eq_true h2
      · exact decide_eq_true h3
    · change ∀ i : Fin 3, (fin ((prob6.AA *ᵥ x) i) <=. uA6 i) = true
      rw [AA6]
      intro i
      fin_cases i
      · exact decide_eq_true h1.le
      · rfl
      · rfl

theorem sym6 : prob6.Sym lA6 uA6 (fun _ => ninf) (fun _ => pinf) swap := by
  refine ⟨fun x h => ?_, fun x => ?_, fun x => ?_⟩
  · rw [feas6] at h
    refine (feas6 _).mpr ?_
    rw [swap_at]
    exact ⟨(add_comm _ _).trans h.1, h.2.2, h.2.1⟩
  · refine (obj6 _).trans ((?_ : _ = _).trans (obj6 x).symm)
    rw [swap_at]
    simp [add_comm]
  · refine (phi6 _).trans ((?_ : _ = _).trans (phi6 x).symm)
    rw [swap_at]
    simp [mul_comm]

theorem pd6 : prob6.Qᵀ = prob6.Q ∧ ∀ v, v ≠ 0 → 0 < v ⬝ᵥ (prob6.Q *ᵥ v) := by
  refine ⟨?_, fun v hv => ?_⟩
  · ext i j
    revert i j
    exact Fin.forall_fin_two.mpr ⟨Fin.forall_fin_two.mpr ⟨rfl, rfl⟩, Fin.forall_fin_two.mpr ⟨rfl, rfl⟩⟩
  · have h : v ⬝ᵥ (prob6.Q *ᵥ v) = v 0 * v 0 + v 1 * v 1 := by
      change ∑ i : Fin 2, v i * ∑ j : Fin 2, prob6.Q i j * v j = _
      simp only [Fin.sum_univ_two]
      simp [prob6, mat]
    rw [h]
    rcases lt_or_eq_of_le (add_nonneg (mul_self_nonneg (v 0)) (mul_self_nonneg (v 1))) with h | h
    · exact h
    · refine absurd ?_ hv
      have h0 : v 0 * v 0 = 0 := by nlinarith [mul_self_nonneg (v 0), mul_self_nonneg (v 1)]
      have h1 : v 1 * v 1 = 0 := by nlinarith [mul_self_nonneg (v 0), mul_self_nonneg (v 1)]
      ext i
      revert i
      exact Fin.forall_fin_two.mpr ⟨mul_self_eq_zero.mp h0, mul_self_eq_zero.mp h1⟩

end Ex

/-- C69: without perturbation and with the unpenalised first subproblem, no run of the code solves
`min (x² + y²) / 2`, `x + y = 1`, `0 ≤ x ⟂ y ≥ 0` (solutions `(1, 0)` and `(0, 1)`), with whatever exact solver for the
subproblems, penalty parameters, stationarity tolerance and further options, once the complementarity tolerance is at
most 1/4. -/
theorem C69_fails {e : Env (Ext ℚ)} (he : FinAns e)
    (hE : ExactOn e Ex.dim6 (IsSub Ex.prob6 Ex.lA6 Ex.uA6 (fun _ => ninf) (fun _ => pinf))) {op : Options (Ext ℚ)} {r0 f ts tc : ℚ}
    (hr : op.rho0 = fin r0) (hf : op.factor = fin f) (f0 : f ≠ 0) (hts : op.statTol = fin ts) (htc : op.complTol = fin tc)
    (hsm : tc ≤ 1 / 4) (hper : op.perturb = false) (hz : op.zeroFirst = true) {o : Obj (Ext ℚ)}
    (h : loadDense e (Obj.new op 2 1 1) Ex.args6 = .ok (.successfulReturn, o)) (fuel : Nat) (o' : Obj (Ext ℚ)) :
    runSolver e fuel o ≠ .ok (some (.successfulReturn, o')) := by
  have hb : Built (Obj.new op 2 1 1) Ex.dim6 := Built.new op (by decide)
  obtain ⟨hS, _⟩ := Setup.dense hb ⟨rfl, rfl, rfl, zero_fin⟩ Ex.args6_are h hr hf f0 he
  have hst := Stored.dense hb rfl rfl Ex.args6_are.fits h
  have ho : o.d.opts = op := (hb.load Ex.args6_are.fits (argLow_pair Ex.args6_are.low) h).2.1
  refine C69_never hS ⟨?_, ?_, ?_, ?_⟩ hE (by rw [ho]; exact hper) Ex.pd6.1 Ex.pd6.2 Ex.sym6 (Or.inl (by rw [ho]; exact hz))
    (by rw [ho]; exact hts) (by rw [ho]; exact htc) ?_ fuel o'
  · rw [hst.lbA]; decide +kernel
  · rw [hst.ubA]; decide +kernel
  · rw [hst.lb]; decide +kernel
  · rw [hst.ub]; decide +kernel
  · intro x hx hs
    have hx := (Ex.feas6 x).mp hx
    have hs := (Ex.swap_at x).symm.trans hs
    have h1 : x 1 = x 0 := congrFun hs (0 : Fin 2)
    have h2 : x 0 = 1 / 2 := by linarith [hx.1]
    refine hsm.trans (le_of_eq ((Ex.phi6 x).trans ?_).symm)
    rw [h1, h2]
    norm_num

namespace Ex

/-- a solver for the subproblems of this example with symmetric linear term; otherwise it fails -/
def solver6 : Env (Ext ℚ) := envOf fun _ q =>
  match q.sub with
  | .osqp _ _ => { good [] [] with ret := 1 }
  | _ => if val q.g 0 = val q.g 1 then good [1 / 2, 1 / 2] [0, 0, 1 / 2 + val q.g 0, 0, 0] else { good [] [] with ret := 1 }

theorem solver6_fin : FinAns solver6 := by
  intro k q _ i
  simp only [solver6, envOf]
  split
  · exact ⟨⟨_, rfl⟩, ⟨_, rfl⟩⟩
  · split <;> exact ⟨⟨_, rfl⟩, ⟨_, rfl⟩⟩

theorem AAT6 (z : Fin 3 → ℚ) : prob6.AAᵀ *ᵥ z = ![z 0 + z 1, z 0 + z 2] := by
  ext i
  change ∑ j : Fin 3, prob6.AA j i * z j = _
  rw [Fin.sum_univ_three]
  revert i
  refine Fin.forall_fin_two.mpr ⟨?_, ?_⟩ <;> simp [prob6, Prob.AA, stackRows, mat]

theorem solver6_exact : ExactOn solver6 dim6 (IsSub prob6 lA6 uA6 (fun _ => ninf) (fun _ => pinf)) := by
  rintro k q _ hq ⟨g, rfl⟩ hok
  have h0 : val q.g 0 = g (0 : Fin 2) := by rw [hq.g]; rfl
  have h1 : val q.g 1 = g (1 : Fin 2) := by rw [hq.g]; rfl
  have hg : g (0 : Fin 2) = g (1 : Fin 2) ∧ (∀ i : Fin 2, (solver6.qp k q).x i.1 = fin (![1 / 2, 1 / 2] i)) ∧
      (solver6.qp k q).Is q.sub dim6 ![1 / 2, 1 / 2] ![1 / 2 + g (0 : Fin 2), 0, 0] 0 := by
    obtain ⟨sub, q2, q3, q4, q5, q6, q7, q8, q9, q10, q11⟩ := q
    dsimp only at h0 h1 hok ⊢
    have hr : ∀ r : Resp (Ext ℚ), r = (if val q3 0 = val q3 1 then good [1 / 2, 1 / 2] [0, 0, 1 / 2 + val q3 0, 0, 0]
        else { good [] [] with ret := 1 }) → r.ret = 0 → g (0 : Fin 2) = g (1 : Fin 2) ∧
        (∀ i : Fin 2, r.x i.1 = fin ((![1 / 2, 1 / 2] : Fin 2 → ℚ) i)) ∧ (∀ i : Fin 2, r.y i.1 = fin ((0 : Fin 2 → ℚ) i)) ∧
        ∀ i : Fin 3, r.y (2 + i.1) = fin ((![1 / 2 + g (0 : Fin 2), 0, 0] : Fin 3 → ℚ) i) := by
      rintro r rfl hret
      split at hret
      · rename_i hc
        rw [if_pos hc, h0]
        refine ⟨by rw [← h0, ← h1, hc], fun i => ?_, fun i => ?_, fun i => ?_⟩ <;> fin_cases i <;> rfl
      · cases hret
    cases sub with
    | dense a b c d => exact ⟨(hr _ rfl hok).1, (hr _ rfl hok).2.1, (hr _ rfl hok).2⟩
    | sparse a b c d => exact ⟨(hr _ rfl hok).1, (hr _ rfl hok).2.1, (hr _ rfl hok).2⟩
    | osqp a b => exact absurd hok.1 (by simp [solver6, envOf])
  refine ⟨_, _, _, hg.2.2, ?_, ?_, ?_, ?_, ?_, ?_⟩
  · have hf := (feas6 ![1 / 2, 1 / 2]).mpr ⟨by norm_num, by norm_num, by norm_num⟩
    exact ⟨hf.lA, hf.uA, hf.l, hf.u⟩
  · change prob6.Q *ᵥ ![1 / 2, 1 / 2] + g = prob6.AAᵀ *ᵥ ![1 / 2 + g (0 : Fin 2), 0, 0] + 0
    rw [AAT6, add_zero]
    ext i
    revert i
    refine Fin.forall_fin_two.mpr ⟨?_, ?_⟩
    · change ∑ j : Fin 2, prob6.Q 0 j * ![1 / 2, 1 / 2] j + g (0 : Fin 2) = _
      rw [Fin.sum_univ_two]
      simp [prob6, mat]
    · change ∑ j : Fin 2, prob6.Q 1 j * ![1 / 2, 1 / 2] j + g (1 : Fin 2) = _
      rw [Fin.sum_univ_two, ← hg.1]
      simp [prob6, mat]
  · change ∀ i : Fin 3, 0 < (![1 / 2 + g (0 : Fin 2), 0, 0] : Fin 3 → ℚ) i → lA6 i = fin ((prob6.AA *ᵥ ![1 / 2, 1 / 2]) i)
    rw [AA6]
    intro i hi
    fin_cases i
    · decide +kernel
    · exact absurd hi (lt_irrefl _)
    · exact absurd hi (lt_irrefl _)
  · change ∀ i : Fin 3, (![1 / 2 + g (0 : Fin 2), 0, 0] : Fin 3 → ℚ) i < 0 → uA6 i = fin ((prob6.AA *ᵥ ![1 / 2, 1 / 2]) i)
    rw [AA6]
    intro i hi
    fin_cases i
    · decide +kernel
    · exact absurd hi (lt_irrefl _)
    · exact absurd hi (lt_irrefl _)
  · intro i h; exact absurd h (lt_irrefl _)
  · intro i h; exact absurd h (lt_irrefl _)

/-- options of this example: as the default ones, but with few penalty updates and without perturbation -/
def opts6S : Options (Ext ℚ) := { opts with
  rho0 := fin 1
  maxRho := fin 4
  perturb := false
  complTol := fin (1 / 1000)
  zeroFirst := true }

/-- the run ends at the symmetric point with the code for an exhausted penalty parameter -/
theorem look6S : (look (do let r ← loadDense solver6 (Obj.new opts6S 2 1 1) args6; runSolver solver6 30 r.2)).map
    (fun l => (l.rv, l.x)) = some (.maxPenaltyReached, some (emb [1 / 2, 1 / 2])) := by
  decide +kernel

end Ex

/-- C69: the assumptions of `C69_fails` (hence those of `C69_symmetric` and `C69_never`) are satisfiable, and a run of
this kind ends at the symmetric point `(1/2, 1/2)` with the code for an exhausted penalty parameter, although `(1, 0)` is
feasible and complementary. -/
theorem C69_witness : ∃ (e : Env (Ext ℚ)) (op : Options (Ext ℚ)) (o o' : Obj (Ext ℚ)) (fuel : Nat) (r0 f ts tc : ℚ),
    FinAns e ∧ ExactOn e Ex.dim6 (IsSub Ex.prob6 Ex.lA6 Ex.uA6 (fun _ => ninf) (fun _ => pinf)) ∧
    op.rho0 = fin r0 ∧ op.factor = fin f ∧ f ≠ 0 ∧ op.statTol = fin ts ∧ op.complTol = fin tc ∧ tc ≤ 1 / 4 ∧
    op.perturb = false ∧ op.zeroFirst = true ∧
    loadDense e (Obj.new op 2 1 1) Ex.args6 = .ok (.successfulReturn, o) ∧
    runSolver e fuel o = .ok (some (.maxPenaltyReached, o')) ∧ o'.s.xk = some (ev ![1 / 2, 1 / 2]) ∧
    Feasible Ex.prob6 Ex.lA6 Ex.uA6 (fun _ => ninf) (fun _ => pinf) ![1, 0] ∧ Ex.prob6.phi ![1, 0] = 0 := by
  have hk := Ex.look6S
  have hl : (loadDense Ex.solver6 (Obj.new Ex.opts6S 2 1 1) Ex.args6).map (·.1) = .ok .successfulReturn := by rfl
  cases h : loadDense Ex.solver6 (Obj.new Ex.opts6S 2 1 1) Ex.args6 with
  | error x => rw [h] at hl; cases hl
  | ok q =>
    rw [h] at hl
    obtain ⟨c, o⟩ := q
    have hl : c = .successfulReturn := by injection hl
    subst hl
    simp only [h, ok_bind] at hk
    cases hr : runSolver Ex.solver6 30 o with
    | error x => rw [hr] at hk; cases hk
    | ok q =>
      rw [hr] at hk
      cases q with
      | none => cases hk
      | some p =>
        obtain ⟨rv, o'⟩ := p
        simp only [Ex.look, Option.map_some, Option.some.injEq, Prod.mk.injEq] at hk
        obtain ⟨rfl, hx⟩ := hk
        refine ⟨_, Ex.opts6S, o, o', 30, 1, 2, 2221 / 10000000000000, 1 / 1000, Ex.solver6_fin, Ex.solver6_exact, by decide +kernel,
          by decide +kernel, by decide, by decide +kernel, by decide +kernel, by norm_num, rfl, rfl, h, hr, ?_,
          (Ex.feas6 _).mpr ⟨by norm_num, by norm_num, by norm_num⟩, ?_⟩
        · rw [hx]; decide +kernel
        · rw [Ex.phi6]; norm_num

end LCQ
