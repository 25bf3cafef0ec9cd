import Verif.Props.Certify
import Verif.Lemmas.ExactSub

/-!
# C26, C27, C48: subproblems, step length, feasibility
-/

set_option linter.unusedSectionVars false

namespace LCQ
open Scalar Ext
open scoped Matrix

variable {K : Type} [Field K] [LinearOrder K] [IsStrictOrderedRing K] {n : Dims} {P : Prob K n} {e : Env (Ext K)}
  {o : Obj (Ext K)} {x0 : Fin n.nV → K} {r0 f : K} {d : Data (Ext K)} {lA uA : Fin n.nA → Ext K} {l u : Fin n.nV → Ext K}

/-- `Utilities::EPS` -/
def epsK : K := 2221 / 10 ^ 19

theorem perturbed_cases {k : Nat} (x : Fin n.nV → K) (i : Fin n.nV) :
    perturbed e k x i = x i - epsK ∨ perturbed e k x i = x i ∨ perturbed e k x i = x i + epsK := by
  have h : e.rnd (k + i) % 3 < 3 := Nat.mod_lt _ (by omega)
  rw [perturbed, epsK]
  rcases (by omega : e.rnd (k + i) % 3 = 0 ∨ e.rnd (k + i) % 3 = 1 ∨ e.rnd (k + i) % 3 = 2) with h | h | h
  · rw [h]; refine Or.inl ?_; push_cast; ring
  · rw [h]; refine Or.inr (Or.inl ?_); push_cast; ring
  · rw [h]; refine Or.inr (Or.inr ?_); push_cast; ring

/-- the subproblem with linear term `g`: objective Hessian, all linear constraints, all bounds -/
def Prob.subQp (P : Prob K n) (lA uA : Fin n.nA → Ext K) (l u : Fin n.nV → Ext K) (g : Fin n.nV → K) : Qp K n :=
  ⟨P.Q, g, P.AA, lA, uA, l, u⟩

/-- gradient of the part of the penalised objective that the solver linearises, at `x`; before the first penalty update
the linear part of the complementarity term is missing in the source -/
def Prob.linPhi (P : Prob K n) (b : Bool) (x : Fin n.nV → K) : Fin n.nV → K := if b then P.gradPhi x else P.C *ᵥ x

theorem lin_eq (b : Bool) (r : K) (x : Fin n.nV → K) : r • (P.C *ᵥ x) + P.gT b r = P.g + r • P.linPhi b x := by
  cases b
  · simp only [Prob.gT, Prob.linPhi, Bool.false_eq_true, if_false]; abel
  · simp only [Prob.gT, Prob.linPhi, if_true, P.gradPhi_eq, smul_add]; abel

theorem Sends.is (h : Sends d n P lA uA l u) {sub : Sub (Ext K)} {a b : List (Ext K)} (hs : d.sub = some sub)
    (ha : d.lbA = some a) (hb : d.ubA = some b) (i : Bool) (g : Fin n.nV → K) (x y : Option (List (Ext K))) :
    Req.Is ⟨sub, i, ev g, a, b, x, y, d.lb, d.ub, d.opts.qpoases, d.opts.osqp⟩ n (P.subQp lA uA l u g) := by
  obtain ⟨sub', h1, h2⟩ := h.sub
  rw [hs] at h1
  injection h1 with h1
  subst h1
  have h3 := h.lbA
  have h4 := h.ubA
  rw [ha] at h3
  rw [hb] at h4
  injection h3 with h3
  injection h4 with h4
  exact ⟨h2, rfl, h3, h4, h.lb, h.ub⟩

theorem Setup.sends (hS : Setup e o n P x0 r0 f) (hB : BoundsAre o n lA uA l u) {s : St (Ext K)} (h : AtHead e o d s) :
    Sends d n P lA uA l u := by
  obtain ⟨s0, ⟨i, hi, hi1, rfl, _⟩, _⟩ := h
  exact init_sends hS.ready hS.holds hB hi hi1

/-- C48: the first request describes the subproblem at the initial guess (or, by option, without penalty term), and
the main loop is entered with a full step to the answer. -/
theorem C48_first (hS : Setup e o n P x0 r0 f) (hB : BoundsAre o n lA uA l u) {s0 : St (Ext K)} (h : Enters e o d s0) :
    ∃ (q : Req (Ext K)) (v : Fin n.nV → K),
      q.Is n (P.subQp lA uA l u (if o.d.opts.zeroFirst then P.g else P.g + r0 • (P.C *ᵥ x0))) ∧ q.init = true ∧
      QpOk q.sub (e.qp o.s.calls q) ∧ (∀ i : Fin n.nV, (e.qp o.s.calls q).x i = fin (v i)) ∧
      s0.xk = some (ev x0) ∧ s0.pk = some (ev (v - x0)) ∧ s0.alpha = some (fin 1) ∧ s0.rho = some (fin r0) := by
  obtain ⟨off, h1, h2, h3, h4, v, y, sub, a, b, y0, h5, h6, hs, ha, hb, h7, h8⟩ :=
    enters_x hS.ready hS.holds hS.x0 hS.rho0 hS.ans h
  have hq := (hS.sends hB ⟨s0, h, .start⟩).is hs ha hb true
    (if d.opts.zeroFirst then P.g else r0 • (P.C *ᵥ x0) + P.g) o.s.xk y0
  refine ⟨_, v, ?_, rfl, h7, h8.1, h5.xk, h5.pk, h5.alpha, h5.rho⟩
  rw [h3, add_comm] at hq
  rw [h3, add_comm]
  exact hq

/-- C48: every later request describes the subproblem at the current iterate `x`, the point reached by the step of this
pass: its linear term is `g + rho * gradPhi x` with the current penalty parameter (without the linear part of the
complementarity term as long as no penalty update has been made).  The answer determines the next step. -/
theorem C48_next (hS : Setup e o n P x0 r0 f) (hB : BoundsAre o n lA uA l u) {s s' : St (Ext K)} (h : AtHead e o d s)
    (hp : pass e d s = .ok (.inl s')) :
    ∃ (q : Req (Ext K)) (xs ps v : Fin n.nV → K) (a r : K) (b : Bool),
      s.xk = some (ev xs) ∧ s.pk = some (ev ps) ∧ s.alpha = some (fin a) ∧ s'.rho = some (fin r) ∧
      (b = true ↔ s'.outer ≠ some 0) ∧
      q.Is n (P.subQp lA uA l u (P.g + r • P.linPhi b (xs + a • ps))) ∧ q.init = false ∧
      QpOk q.sub (e.qp s.calls q) ∧ (∀ i : Fin n.nV, (e.qp s.calls q).x i = fin (v i)) ∧
      s'.pk = some (ev (v - (xs + a • ps))) ∧
      (o.d.opts.perturb = false → s'.xk = some (ev (xs + a • ps))) ∧
      ∃ x', s'.xk = some (ev x') ∧ ∀ i, x' i = (xs + a • ps) i - epsK ∨ x' i = (xs + a • ps) i ∨ x' i = (xs + a • ps) i + epsK := by
  obtain ⟨off, h0, hd, ho, hsp, r, b, x, p, a, y, hx, hb⟩ := hS.head h
  obtain ⟨r', b', c, k, x', v, y', sub, la, ua, _, hb', hs, hla, hua, hxe, hx', hq, hv, rfl, _⟩ :=
    pass_x h0 hd hS.ans (by rw [ho]; exact hS.factor) hS.f0 hx hb hp
  have hq2 := (hS.sends hB h).is hs hla hua false (r' • (P.C *ᵥ (x + a • p)) + P.gT b' r') none none
  rw [lin_eq] at hq2 hq hv
  refine ⟨_, x, p, v, a, r', b', hx.xk, hx.pk, hx.alpha, hx'.rho, ?_, hq2, rfl, hq, hv.1, hx'.pk, ?_, x', hx'.xk, ?_⟩
  · obtain ⟨k, hk, hk0, hkb⟩ := hb'
    rw [hkb, hk]
    simp only [ne_eq, Option.some.injEq]
    omega
  · intro hper
    rw [ho, hper] at hxe
    rw [hx'.xk, hxe]
    simp
  · intro i
    rw [hxe]
    split
    · exact perturbed_cases _ i
    · exact Or.inr (Or.inl rfl)

/-! ## step length -/

theorem alphaOf_mem (q l : K) : 0 < alphaOf q l ∧ alphaOf q l ≤ 1 := by
  unfold alphaOf
  split
  · rename_i h
    exact ⟨lt_min (div_pos (by linarith) h.1) one_pos, min_le_right _ _⟩
  · exact ⟨one_pos, le_refl 1⟩

/-- the step length minimises `t * l + t² * q / 2` on the unit interval -/
theorem alphaOf_min {q l : K} (hq : 0 < q) (hl : l < 0) {t : K} (h0 : 0 ≤ t) (h1 : t ≤ 1) :
    alphaOf q l * l + alphaOf q l ^ 2 * q / 2 ≤ t * l + t ^ 2 * q / 2 := by
  rw [alphaOf, if_pos ⟨hq, hl⟩]
  rcases le_total (-l / q) 1 with h | h
  · rw [min_eq_left h]
    have e1 : -l / q * q = -l := div_mul_cancel₀ _ hq.ne'
    have e2 : (-l / q) ^ 2 * q = (-l / q) * -l := by rw [pow_two, mul_assoc, e1]
    have e3 : (t - -l / q) ^ 2 * q = t ^ 2 * q - 2 * t * (-l / q * q) + (-l / q) ^ 2 * q := by ring
    have : 0 ≤ (t - -l / q) ^ 2 * q := mul_nonneg (sq_nonneg _) hq.le
    rw [e3, e1, e2] at this
    rw [e2]
    linarith
  · rw [min_eq_right h]
    rw [le_div_iff₀ hq, one_mul] at h
    have h2 : (1 + t) * q ≤ 2 * q := mul_le_mul_of_nonneg_right (by linarith) hq.le
    have h3 : 0 ≤ (1 - t) * -(l + (1 + t) * q / 2) := mul_nonneg (by linarith) (by linarith)
    have e3 : (1 - t) * -(l + (1 + t) * q / 2) = t * l + t ^ 2 * q / 2 - (1 * l + 1 ^ 2 * q / 2) := by ring
    rw [e3] at h3
    linarith

/-- the penalty function along a line -/
theorem pen_line (hQ : P.Qᵀ = P.Q) (r t : K) (x p : Fin n.nV → K) : P.pen r (x + t • p) = P.pen r x +
    (t * (p ⬝ᵥ (P.gradObj x + r • P.gradPhi x)) + t ^ 2 * (p ⬝ᵥ ((P.Q + r • P.C) *ᵥ p)) / 2) := by
  have sy : ∀ B : Matrix (Fin n.nV) (Fin n.nV) K, Bᵀ = B → x ⬝ᵥ (B *ᵥ p) = p ⬝ᵥ (B *ᵥ x) := by
    intro B hB
    rw [Matrix.dotProduct_mulVec, ← Matrix.mulVec_transpose, hB, dotProduct_comm]
  have h1 := sy _ hQ
  have h2 := sy _ P.C_symm
  simp only [Prob.pen, Prob.obj, P.phi_eq, P.gradPhi_eq, Prob.gradObj, dotProduct_add, add_dotProduct, Matrix.mulVec_add,
    Matrix.mulVec_smul, dotProduct_smul, smul_dotProduct, smul_eq_mul, Matrix.add_mulVec, Matrix.smul_mulVec, h1, h2,
    dotProduct_comm p P.g, dotProduct_comm p P.gPhi]
  ring

/-- C26: the step length in every state at the head of the main loop lies in `(0, 1]`. -/
theorem C26_range (hS : Setup e o n P x0 r0 f) {s : St (Ext K)} (h : AtHead e o d s) :
    ∃ a, s.alpha = some (fin a) ∧ 0 < a ∧ a ≤ 1 := by
  have hh := h
  obtain ⟨s0, h0, h⟩ := h
  cases h with
  | start =>
    obtain ⟨off, h1, h2, h3, h4, v, y, sub, lA, uA, y0, h5, h6, _⟩ :=
      enters_x hS.ready hS.holds hS.x0 hS.rho0 hS.ans h0
    exact ⟨1, h5.alpha, one_pos, le_refl 1⟩
  | pass hr hp =>
    obtain ⟨off, h0, hd, ho, hsp, r, b, x, p, a, y, hx, hb⟩ := hS.head ⟨s0, h0, hr⟩
    obtain ⟨r', b', c, k, x', v, y', sub, la, ua, _, hb', hs, hla, hua, hxe, hx', hq, hv, rfl, _⟩ :=
      pass_x h0 hd hS.ans (by rw [ho]; exact hS.factor) hS.f0 hx hb hp
    exact ⟨_, hx'.alpha, (alphaOf_mem _ _).1, (alphaOf_mem _ _).2⟩

/-- curvature of the penalty function along `p` -/
def Prob.curv (P : Prob K n) (r : K) (p : Fin n.nV → K) : K := p ⬝ᵥ (P.Q *ᵥ p) + r * (2 * ((P.L *ᵥ p) ⬝ᵥ (P.R *ᵥ p)))

/-- slope of the penalty function at `x` along `p` -/
def Prob.slope (P : Prob K n) (r : K) (x p : Fin n.nV → K) : K := (P.gradObj x + r • P.gradPhi x) ⬝ᵥ p

theorem curv_eq (r : K) (p : Fin n.nV → K) : p ⬝ᵥ ((P.Q + r • P.C) *ᵥ p) = P.curv r p := by
  have h1 : p ⬝ᵥ (P.C *ᵥ p) = 2 * ((P.L *ᵥ p) ⬝ᵥ (P.R *ᵥ p)) := by
    rw [Prob.C, Matrix.add_mulVec, dotProduct_add, ← Matrix.mulVec_mulVec, ← Matrix.mulVec_mulVec,
      Matrix.dotProduct_mulVec p P.Lᵀ, Matrix.dotProduct_mulVec p P.Rᵀ, Matrix.vecMul_transpose,
      Matrix.vecMul_transpose, dotProduct_comm (P.R *ᵥ p)]
    ring
  rw [Matrix.add_mulVec, dotProduct_add, Matrix.smul_mulVec, dotProduct_smul, h1, Prob.curv, smul_eq_mul]

/-- the step computed at the end of a pass, with the numbers it depends on -/
theorem step_x (hS : Setup e o n P x0 r0 f) (hQ : P.Qᵀ = P.Q) {s s' : St (Ext K)} (h : AtHead e o d s)
    (hp : pass e d s = .ok (.inl s')) (hc : s'.outer ≠ some 0 ∨ P.gPhi = 0) :
    ∃ (x p : Fin n.nV → K) (a r : K), s'.xk = some (ev x) ∧ s'.pk = some (ev p) ∧ s'.alpha = some (fin a) ∧
      s'.rho = some (fin r) ∧ a = alphaOf (P.curv r p) (P.slope r x p) := by
  obtain ⟨off, h0, hd, ho, hsp, r, b, x, p, a, y, hx, hb⟩ := hS.head h
  obtain ⟨r', b', c, k, x', v, y', sub, la, ua, _, hb', hs, hla, hua, hxe, hx', hq, hv, rfl, _⟩ :=
    pass_x h0 hd hS.ans (by rw [ho]; exact hS.factor) hS.f0 hx hb hp
  refine ⟨x', _, _, r', hx'.xk, hx'.pk, hx'.alpha, hx'.rho, ?_⟩
  have h1 : tr d.sparse (P.Q + r' • P.C) = P.Q + r' • P.C := by
    cases d.sparse
    · rfl
    · apply tr_symm
      rw [Matrix.transpose_add, Matrix.transpose_smul, hQ, P.C_symm]
  have h2 : P.gT b' r' = P.g + r' • P.gPhi := by
    cases b'
    · obtain ⟨k, hk, hk0, hkb⟩ := hb'
      rcases hc with hc | hc
      · have : ¬ (0 < k) := fun h => by simpa using hkb.mpr h
        exact absurd (by rw [hk, le_antisymm (not_lt.mp this) hk0]) hc
      · simp [Prob.gT, hc]
    · simp [Prob.gT]
  rw [h1, h2, curv_eq]
  congr 1
  rw [Prob.slope, dotProduct_comm, P.gradPhi_eq, Prob.gradObj, Matrix.add_mulVec, Matrix.smul_mulVec, smul_add]
  congr 1
  abel

/-- C26: the step computed at the end of a pass minimises the penalty function along the step over `[0, 1]` if the
slope is negative and the curvature positive, and is a full step otherwise.  (`Q` symmetric; a penalty update has been
made or the complementarity term has no linear part.) -/
theorem C26_optimal (hS : Setup e o n P x0 r0 f) (hQ : P.Qᵀ = P.Q) {s s' : St (Ext K)} (h : AtHead e o d s)
    (hp : pass e d s = .ok (.inl s')) (hc : s'.outer ≠ some 0 ∨ P.gPhi = 0) :
    ∃ (x p : Fin n.nV → K) (a r : K), s'.xk = some (ev x) ∧ s'.pk = some (ev p) ∧ s'.alpha = some (fin a) ∧
      s'.rho = some (fin r) ∧ 0 < a ∧ a ≤ 1 ∧
      (0 < P.curv r p → P.slope r x p < 0 → ∀ t : K, 0 ≤ t → t ≤ 1 → P.pen r (x + a • p) ≤ P.pen r (x + t • p)) ∧
      (¬ (0 < P.curv r p ∧ P.slope r x p < 0) → a = 1) := by
  obtain ⟨x, p, a, r, hx, hpk, ha, hr, he⟩ := step_x hS hQ h hp hc
  refine ⟨x, p, a, r, hx, hpk, ha, hr, ?_, ?_, ?_, ?_⟩
  · rw [he]; exact (alphaOf_mem _ _).1
  · rw [he]; exact (alphaOf_mem _ _).2
  · intro h1 h2 t t0 t1
    rw [pen_line hQ, pen_line hQ, he, dotProduct_comm p, curv_eq]
    have := alphaOf_min h1 h2 t0 t1
    simp only [Prob.slope] at this ⊢
    linarith
  · intro hn
    rw [he, alphaOf, if_neg hn]

/-! ## feasibility -/

/-- the subproblems of the run -/
def IsSub (P : Prob K n) (lA uA : Fin n.nA → Ext K) (l u : Fin n.nV → Ext K) (p : Qp K n) : Prop := ∃ g, p = P.subQp lA uA l u g

/-- feasibility for the linear constraints, the side constraints of the complementarity pairs and the bounds -/
def Feasible (P : Prob K n) (lA uA : Fin n.nA → Ext K) (l u : Fin n.nV → Ext K) (x : Fin n.nV → K) : Prop :=
  (P.subQp lA uA l u 0).Feas x

theorem feas_any {g : Fin n.nV → K} {x : Fin n.nV → K} (h : (P.subQp lA uA l u g).Feas x) : Feasible P lA uA l u x :=
  ⟨h.lA, h.uA, h.l, h.u⟩

/-- the next iterate is feasible, and the current one is unless the step is full -/
theorem head_feas (hS : Setup e o n P x0 r0 f) (hB : BoundsAre o n lA uA l u) (hF : FeasOn e n (IsSub P lA uA l u))
    (hper : o.d.opts.perturb = false) {s : St (Ext K)} (h : AtHead e o d s) :
    ∃ (x p : Fin n.nV → K) (a : K), s.xk = some (ev x) ∧ s.pk = some (ev p) ∧ s.alpha = some (fin a) ∧ 0 < a ∧ a ≤ 1 ∧
      Feasible P lA uA l u (x + p) ∧ (a = 1 ∨ Feasible P lA uA l u x) ∧ Feasible P lA uA l u (x + a • p) := by
  suffices hs : ∃ (x p : Fin n.nV → K) (a : K), s.xk = some (ev x) ∧ s.pk = some (ev p) ∧ s.alpha = some (fin a) ∧ 0 < a ∧
      a ≤ 1 ∧ Feasible P lA uA l u (x + p) ∧ (a = 1 ∨ Feasible P lA uA l u x) by
    obtain ⟨x, p, a, h1, h2, h3, h4, h5, h6, h7⟩ := hs
    refine ⟨x, p, a, h1, h2, h3, h4, h5, h6, h7, ?_⟩
    rcases h7 with rfl | h7
    · rw [one_smul]; exact h6
    · have := h7.comb h6 h4.le h5
      rwa [add_sub_cancel_left] at this
  obtain ⟨s0, h0, h⟩ := h
  induction h with
  | start =>
    obtain ⟨q, v, hq, _, hok, hv, hx, hp, ha, _⟩ := C48_first hS hB h0
    refine ⟨x0, v - x0, 1, hx, hp, ha, one_pos, le_refl 1, ?_, Or.inl rfl⟩
    rw [add_sub_cancel]
    exact feas_any (hF _ _ _ hq ⟨_, rfl⟩ hok v hv)
  | @pass t t' hr hp ih =>
    obtain ⟨x, p, a, h1, h2, h3, h4, h5, h6, h7⟩ := ih
    obtain ⟨q, xs, ps, v, a', r, b, e1, e2, e3, _, _, hq, _, hok, hv, hpk, hxk⟩ := C48_next hS hB ⟨s0, h0, hr⟩ hp
    rw [e1] at h1
    rw [e2] at h2
    rw [e3] at h3
    have h1 : xs = x := ev_inj (Option.some.inj h1)
    have h2 : ps = p := ev_inj (Option.some.inj h2)
    have h3 : a' = a := by injection h3 with h3; injection h3
    subst h1 h2 h3
    obtain ⟨a2, ha2, p2, l2⟩ := C26_range hS ⟨s0, h0, .pass hr hp⟩
    refine ⟨_, _, a2, hxk.1 hper, hpk, ha2, p2, l2, ?_, Or.inr ?_⟩
    · rw [add_sub_cancel]
      exact feas_any (hF _ _ _ hq ⟨_, rfl⟩ hok v hv)
    · rcases h7 with rfl | h7
      · rw [one_smul]; exact h6
      · have := h7.comb h6 h4.le h5
        rwa [add_sub_cancel_left] at this

theorem ExactOn.feas {S : Qp K n → Prop} (h : ExactOn e n S) : FeasOn e n S := by
  intro k q p hq hS hok x hx
  obtain ⟨x', z, w, ⟨hx', _⟩, hk⟩ := h k q p hq hS hok
  have : x' = x := by
    ext i
    have := (hx' i).symm.trans (hx i)
    injection this
  exact this ▸ hk.feas

/-- C26: with exactly solved subproblems, a symmetric positive semidefinite `Q` and no perturbation, the slope of the
penalty function along the step is at most minus the curvature of the objective, and the penalty function does not
increase if the slope is negative or the curvature of the penalty function is not positive. -/
theorem C26_descent (hS : Setup e o n P x0 r0 f) (hB : BoundsAre o n lA uA l u) (hE : ExactOn e n (IsSub P lA uA l u))
    (hper : o.d.opts.perturb = false) (hQ : P.Qᵀ = P.Q) (hpsd : ∀ v, 0 ≤ v ⬝ᵥ (P.Q *ᵥ v)) {s s' : St (Ext K)}
    (h : AtHead e o d s) (hp : pass e d s = .ok (.inl s')) (hc : s'.outer ≠ some 0 ∨ P.gPhi = 0) :
    ∃ (x p : Fin n.nV → K) (a r : K), s'.xk = some (ev x) ∧ s'.pk = some (ev p) ∧ s'.alpha = some (fin a) ∧
      s'.rho = some (fin r) ∧ P.slope r x p ≤ -(p ⬝ᵥ (P.Q *ᵥ p)) ∧
      (P.slope r x p < 0 ∨ P.curv r p ≤ 0 → P.pen r (x + a • p) ≤ P.pen r x) := by
  obtain ⟨x, p, a, r, hx, hpk, ha, hr, he⟩ := step_x hS hQ h hp hc
  refine ⟨x, p, a, r, hx, hpk, ha, hr, ?_⟩
  obtain ⟨x', p', a', e1, e2, e3, _, _, _, _, hfeas⟩ := head_feas hS hB hE.feas hper h
  obtain ⟨q, xs, ps, v, a'', r', b, g1, g2, g3, g4, g5, hq, _, hok, hv, hpk', hxk⟩ := C48_next hS hB h hp
  rw [g1] at e1
  rw [g2] at e2
  rw [g3] at e3
  have e1 : xs = x' := ev_inj (Option.some.inj e1)
  have e2 : ps = p' := ev_inj (Option.some.inj e2)
  have e3 : a'' = a' := by injection e3 with e3; injection e3
  subst e1 e2 e3
  have hxk := hxk.1 hper
  rw [hx] at hxk
  rw [hpk] at hpk'
  rw [hr] at g4
  have e4 := ev_inj (Option.some.inj hxk)
  have e5 := ev_inj (Option.some.inj hpk')
  have e6 : r = r' := by injection g4 with g4; injection g4
  rw [← e4] at hq hfeas e5
  subst e6
  obtain ⟨v', z, w, ⟨hv', _⟩, hk⟩ := hE _ _ _ hq ⟨_, rfl⟩ hok
  have e7 : v' = v := by
    ext i
    have := (hv' i).symm.trans (hv i)
    injection this
  subst e7
  have hlin : P.linPhi b x = P.gradPhi x := by
    cases b
    · rcases hc with hc | hc
      · exact absurd (g5.mpr hc) (by simp)
      · simp [Prob.linPhi, P.gradPhi_eq, hc]
    · rfl
  have hvi := hk.vi (y := x) ⟨hfeas.lA, hfeas.uA, hfeas.l, hfeas.u⟩
  have hslope : P.slope r x p ≤ -(p ⬝ᵥ (P.Q *ᵥ p)) := by
    have e8 : v' = x + p := by rw [e5, add_sub_cancel]
    have e9 : x - v' = -p := by rw [e8]; simp
    rw [e9, dotProduct_neg, Qp.grad, Prob.subQp, hlin, e8] at hvi
    simp only [Matrix.mulVec_add, add_dotProduct] at hvi
    rw [Prob.slope, Prob.gradObj, add_dotProduct, add_dotProduct]
    rw [dotProduct_comm (P.Q *ᵥ p) p] at hvi
    linarith
  refine ⟨hslope, ?_⟩
  have h0 := hpsd p
  intro hcase
  rw [pen_line hQ, dotProduct_comm p, curv_eq]
  change P.pen r x + (a * P.slope r x p + a ^ 2 * P.curv r p / 2) ≤ P.pen r x
  by_cases hcp : 0 < P.curv r p
  · rcases hcase with hs | hs
    · have := alphaOf_min hcp hs (le_refl 0) zero_le_one
      rw [← he] at this
      linarith
    · exact absurd hcp (not_lt.mpr hs)
  · have ha1 : a = 1 := by rw [he, alphaOf, if_neg (fun h => hcp h.1)]
    rw [ha1]
    have := not_lt.mp hcp
    linarith

/-- the iterate at the end of a run is the one reached by the step of the last pass -/
theorem pass_end (hS : Setup e o n P x0 r0 f) {s : St (Ext K)} (h : AtHead e o d s) {q : RV × St (Ext K)}
    (hp : pass e d s = .ok (.inr q)) : ∃ (x p : Fin n.nV → K) (a : K), s.xk = some (ev x) ∧ s.pk = some (ev p) ∧
      s.alpha = some (fin a) ∧ q.2.xk = some (ev (x + a • p)) := by
  obtain ⟨off, h0, hd, ho, hsp, r, b, x, p, a, y, hx, hb⟩ := hS.head h
  refine ⟨x, p, a, hx.xk, hx.pk, hx.alpha, ?_⟩
  obtain ⟨s1, s2, s3, h1, h2, h3, hrest⟩ := pass_inv hp
  obtain ⟨x1, _, o1, _⟩ := advance_x hd hx h1
  have b1 : OutB s1 b := by unfold OutB; rw [o1]; exact hb
  obtain ⟨r2, b2, x2, b2', _⟩ := dynamic_x hd (by rw [ho]; exact hS.factor) hS.f0 x1 b1 h2
  obtain ⟨_, x3⟩ := lin_x hd x2 h3
  rcases hrest with ⟨_, _, q', hq, hqq⟩ | ⟨s4, t, rho, h4, _, _, h5⟩
  · injection hqq with hqq
    subst hqq
    obtain ⟨_, _, _, _, hq2⟩ := accept_inv hq
    rw [hq2]
    exact x3.xk
  · have x4 : ∃ r4 b4, XSt d n P off s4 r4 b4 (x + a • p) p a y := by
      rcases h4 with ⟨_, rfl⟩ | ⟨_, _, h4⟩
      · exact ⟨_, _, x3⟩
      · exact ⟨_, _, (bump_x hd (by rw [ho]; exact hS.factor) hS.f0 x3 h4).1⟩
    obtain ⟨r4, b4, x4⟩ := x4
    rcases h5 with ⟨_, hq⟩ | ⟨_, _, hq⟩ | ⟨_, _, hq⟩
    · injection hq with hq
      rw [hq]; exact x4.xk
    · injection hq with hq
      rw [hq]; exact x4.xk
    · simp only [nextStep, bind_eq_ok] at hq
      obtain ⟨s5, h5, w, hw, hq⟩ := hq
      obtain ⟨_, x5⟩ := lin_x hd x4 h5
      split at hq
      · rename_i hne
        injection hq with hq
        injection hq with hq
        rw [← hq]
        show w.2.xk = _
        simp only [solveQP, bind_eq_ok] at hw
        obtain ⟨v, hv, s6, h6, hw⟩ := hw
        obtain ⟨_, _, _, _, _, _, hv2⟩ := subSolve_inv hv
        rw [hv2] at h6
        split at hw
        · injection hw with hw
          rw [← hw]
          simp only [afterSolve, bind_eq_ok] at h6
          obtain ⟨_, _, _, _, _, _, _, _, _, _, h6⟩ := h6
          injection h6 with h6
          rw [← h6]
          show some (s5.xk.getD _) = _
          rw [x5.xk]
          rfl
        · simp only [bind_eq_ok] at hw
          obtain ⟨_, _, hw⟩ := hw
          injection hw with hw
          rw [← hw] at hne
          exact absurd rfl hne
      · simp only [bind_eq_ok] at hq
        obtain ⟨_, _, _, _, hq⟩ := hq
        injection hq with hq
        cases hq

/-- the end of a run that enters the main loop -/
theorem run_end {α : Type} [Scalar α] {e : Env α} {fuel : Nat} {o o' : Obj α} {rv : RV}
    (h : runSolver e fuel o = .ok (some (rv, o'))) {d : Data α} {s0 : St α} (h0 : Enters e o d s0) :
    d = o'.d ∧ ∃ s, AtHead e o o'.d s ∧ pass e o'.d s = .ok (.inr (rv, o'.s)) := by
  obtain ⟨i, hi, hi1, rfl, hf⟩ := h0
  obtain ⟨j, hj, hrest⟩ := runSolver_inv h
  rw [hi] at hj
  injection hj with hj
  subst hj
  rcases hrest with ⟨hne, hr⟩ | ⟨hs, hd, hf' | ⟨s1, hf', hm⟩⟩
  · exact absurd hi1 hne
  · rw [hf] at hf'
    cases hf'
  · rw [hf] at hf'
    injection hf' with hf'
    injection hf' with hf'
    subst hf'
    obtain ⟨t, ht, hp⟩ := mainLoop_reach hm
    dsimp only at hd
    refine ⟨hd.symm, t, ?_, ?_⟩
    · rw [hd]; exact ⟨s0, ⟨i, hi, hi1, rfl, hf⟩, ht⟩
    · rw [hd]; exact hp

/-- C27: if all successful QP answers are feasible and perturbation is off, then the iterate is feasible after every pass
of the main loop, whether or not the pass ends the run. -/
theorem C27_pass (hS : Setup e o n P x0 r0 f) (hB : BoundsAre o n lA uA l u) (hF : FeasOn e n (IsSub P lA uA l u))
    (hper : o.d.opts.perturb = false) {s : St (Ext K)} (h : AtHead e o d s) {r : Step (Ext K)} (hp : pass e d s = .ok r) :
    ∃ x, (match r with | .inl s' => s' | .inr q => q.2).xk = some (ev x) ∧ Feasible P lA uA l u x := by
  obtain ⟨x, p, a, h1, h2, h3, _, _, _, _, hfe⟩ := head_feas hS hB hF hper h
  cases r with
  | inl s' =>
    obtain ⟨q, xs, ps, v, a', r, b, e1, e2, e3, _, _, hq, _, hok, hv, hpk, hxk⟩ := C48_next hS hB h hp
    rw [e1] at h1
    rw [e2] at h2
    rw [e3] at h3
    have h1 : xs = x := ev_inj (Option.some.inj h1)
    have h2 : ps = p := ev_inj (Option.some.inj h2)
    have h3 : a' = a := by injection h3 with h3; injection h3
    subst h1 h2 h3
    exact ⟨_, hxk.1 hper, hfe⟩
  | inr q =>
    obtain ⟨xs, ps, a', e1, e2, e3, hx⟩ := pass_end hS h hp
    rw [e1] at h1
    rw [e2] at h2
    rw [e3] at h3
    have h1 : xs = x := ev_inj (Option.some.inj h1)
    have h2 : ps = p := ev_inj (Option.some.inj h2)
    have h3 : a' = a := by injection h3 with h3; injection h3
    subst h1 h2 h3
    exact ⟨_, hx, hfe⟩

/-- C27: the point left by a run, with whatever return code, is feasible if the first subproblem was solved. -/
theorem C27_run (hS : Setup e o n P x0 r0 f) (hB : BoundsAre o n lA uA l u) (hF : FeasOn e n (IsSub P lA uA l u))
    (hper : o.d.opts.perturb = false) {fuel : Nat} {rv : RV} {o' : Obj (Ext K)}
    (h : runSolver e fuel o = .ok (some (rv, o'))) {s0 : St (Ext K)} (h0 : Enters e o d s0) :
    ∃ x, o'.s.xk = some (ev x) ∧ Feasible P lA uA l u x := by
  obtain ⟨_, s, hs, hp⟩ := run_end h h0
  exact C27_pass hS hB hF hper hs hp

/-- C27: the point returned by a successful run is feasible. -/
theorem C27_success (hS : Setup e o n P x0 r0 f) (hB : BoundsAre o n lA uA l u) (hF : FeasOn e n (IsSub P lA uA l u))
    (hper : o.d.opts.perturb = false) {fuel : Nat} {o' : Obj (Ext K)}
    (h : runSolver e fuel o = .ok (some (.successfulReturn, o'))) :
    ∃ x, o'.s.xk = some (ev x) ∧ Feasible P lA uA l u x := by
  obtain ⟨s, hs, hp⟩ := run_last h
  exact C27_pass hS hB hF hper hs hp

end LCQ
