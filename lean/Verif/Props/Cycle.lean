import Verif.Props.Enough
import Verif.Props.Safety
import Verif.Props.Dynamic
import Verif.Props.Choice

/-!
# C55: strong convexity is needed, and an example

For the convex objective 0 a run with exact QP answers can alternate between two points for ever.
-/

set_option linter.unusedSectionVars false

namespace LCQ
open Scalar Ext
open scoped Matrix

section
variable {K : Type} [Field K] [LinearOrder K] [IsStrictOrderedRing K] {n : Dims} {P : Prob K n} {e : Env (Ext K)}
  {d : Data (Ext K)} {off : Nat} {s : St (Ext K)} {r a : K} {b : Bool} {x p : Fin n.nV → K} {y : Fin (off + n.nA) → K}

/-- a pass that fails the stationarity test, with the dynamic penalty rule switched off -/
theorem pass_quiet (hd : DataIs d n P off) (hs : XSt d n P off s r b x p a y) {ts : K} (ht : d.opts.statTol = fin ts)
    (hn : d.opts.nDyn = 0) {i : Fin n.nV} (hi : ts ≤ |P.stat d.sparse r b (x + a • p) y i|) {t k : Nat}
    (hl : Live d.opts s t k) {q : Step (Ext K)} (hp : pass e d s = .ok q) :
    ∃ s4, Live d.opts s4 (t + 1) k ∧ ((d.opts.maxIter < (t + 1 : Nat) ∧ q = .inr (.maxIterationsReached, s4)) ∨
      ((d.opts.maxRho <. penalty d.opts k) = true ∧ q = .inr (.maxPenaltyReached, s4)) ∨ nextStep e d s4 = .ok q) := by
  obtain ⟨s1, s2, s3, h1, h2, h3, h4⟩ := pass_inv hp
  obtain ⟨_, g2, _, _⟩ := advance_x hd hs h1
  have l1 := (hl.advance h1).1
  have e2 : s2 = s1 := by
    simp only [dynamicPenalty, C29_off hn, ok_bind] at h2
    injection h2 with h2
    exact h2.symm
  subst e2
  have l3 := (l1.lin h3).1
  obtain ⟨gk, e3⟩ := updateLinearization_inv h3
  have hno : stationarityCheck d s3 ≠ .ok true := by
    intro h
    have hv : s3.statk = some (ev (P.stat d.sparse r b (x + a • p) y)) := by rw [e3]; exact g2
    exact absurd (stationarityCheck_x hd hv ht h i) (not_lt.mpr hi)
  rcases h4 with ⟨h4, _⟩ | ⟨s4, t', rho, ⟨_, rfl⟩ | ⟨h4, _⟩, h5, h6, h7⟩
  · exact absurd h4 hno
  · refine ⟨s4, l3, ?_⟩
    have et : t' = ((t + 1 : Nat) : Int) := by
      have := l3.total
      rw [h5] at this
      injection this
    have er : rho = penalty d.opts k := by
      have := l3.rho
      rw [h6] at this
      injection this
    subst et er
    rcases h7 with ⟨h7, h8⟩ | ⟨_, h7, h8⟩ | ⟨_, _, h7⟩
    · exact Or.inl ⟨h7, h8⟩
    · exact Or.inr (Or.inl ⟨h7, h8⟩)
    · exact Or.inr (Or.inr h7)
  · exact absurd h4 hno

end

namespace Ex

/-- options of the example: dynamic penalty rule switched off, iteration limit `N` -/
def optsC (N : Int) : Options (Ext ℚ) := { opts with
  nDyn := 0
  maxIter := N }

theorem loadC (N : Int) : (loadDense (solver ans3) (Obj.new (optsC N) 2 0 1) args3).map (·.1) = .ok .successfulReturn := by rfl

theorem optsC_tol (N : Int) : ∃ ts : ℚ, (optsC N).statTol = fin ts ∧ ts ≤ 1 / 100 := by
  refine ⟨_, rfl, ?_⟩
  decide +kernel

theorem prob_C {Q g lbL lbR : List ℚ} (x : Fin dim.nV → ℚ) :
    ((prob Q g lbL lbR).C *ᵥ x) 0 = x 1 ∧ ((prob Q g lbL lbR).C *ᵥ x) 1 = x 0 := by
  revert x
  change ∀ x : Fin 2 → ℚ, (∑ j : Fin 2, (prob Q g lbL lbR).C 0 j * x j = x 1) ∧
    ∑ j : Fin 2, (prob Q g lbL lbR).C 1 j * x j = x 0
  intro x
  constructor <;> rw [Fin.sum_univ_two] <;> simp [prob, Prob.C, mat, Matrix.mul_apply]

/-- the Hessian of the subproblems with penalty term, on constant vectors -/
theorem prob3_H (r c : ℚ) : (prob3.Q + r • prob3.C) *ᵥ (fun _ => c) = fun _ => r * c := by
  ext i
  rw [Matrix.add_mulVec, Matrix.smul_mulVec, Pi.add_apply, Pi.smul_apply, prob_Q]
  revert i
  refine Fin.forall_fin_two.mpr ⟨?_, ?_⟩
  · have := (prob_C (Q := [0, 0, 0, 0]) (g := [0, 0]) (lbL := [0]) (lbR := [0]) (fun _ => c)).1
    simp [this]
  · have := (prob_C (Q := [0, 0, 0, 0]) (g := [0, 0]) (lbL := [0]) (lbR := [0]) (fun _ => c)).2
    simp [this]

theorem prob3_g : prob3.g = 0 := by
  ext i
  revert i
  exact Fin.forall_fin_two.mpr ⟨rfl, rfl⟩

theorem prob3_symm (r : ℚ) : (prob3.Q + r • prob3.C)ᵀ = prob3.Q + r • prob3.C := by
  rw [Matrix.transpose_add, Matrix.transpose_smul, prob3.C_symm, (prob_psd (c := 0) le_rfl).1]

/-- the answer to a request with constant linear term `c` -/
theorem ansC {k : Nat} {q : Req (Ext ℚ)} {lA uA : Fin dim.nA → Ext ℚ} {l u : Fin dim.nV → Ext ℚ} {c : ℚ}
    (hq : q.Is dim (prob3.subQp lA uA l u fun _ => c)) (hc : 0 ≤ c) (hok : QpOk q.sub ((solver ans3).qp k q)) :
    ((solver ans3).qp k q).Is q.sub dim (fun _ => if 0 < c then 0 else 1) (fun _ => c) (fun _ => 0) := by
  refine solver_is (z := fun _ => c) (w := fun _ => 0) hq ?_ hok
  show ans3 c c = _
  simp [ans3, hc]

/-- the two kinds of states of the main loop -/
def Cyc (d : Data (Ext ℚ)) (s : St (Ext ℚ)) (t : Nat) : Prop :=
  ∃ off, ∃ (y : Fin (off + dim.nA) → ℚ) (x : ℚ), DataOK d dim off ∧ DataIs d dim prob3 off ∧ (x = 0 ∨ x = 1) ∧
    XSt d dim prob3 off s (1 / 100) false (fun _ => x) (fun _ => 1 - 2 * x) 1 y ∧ Live d.opts s t 0 ∧
    (yLin y = fun _ => x / 100) ∧ yBox y = fun _ => 0

/-- the stationarity test fails in such a state -/
theorem Cyc.resid {d : Data (Ext ℚ)} {off : Nat} {y : Fin (off + dim.nA) → ℚ} {x : ℚ} (hx : x = 0 ∨ x = 1)
    (h1 : yLin y = fun _ => x / 100) (h2 : yBox y = fun _ => 0) {ts : ℚ} (ht : ts ≤ 1 / 100) (i : Fin dim.nV) :
    ts ≤ |prob3.stat d.sparse (1 / 100) false ((fun _ => x) + (1 : ℚ) • fun _ => 1 - 2 * x) y i| := by
  have e : ((fun _ => x) + (1 : ℚ) • fun _ => 1 - 2 * x : Fin dim.nV → ℚ) = fun _ => 1 - x := by
    ext i
    simp only [Pi.add_apply, Pi.smul_apply, smul_eq_mul]
    ring
  rw [e, Prob.stat, tr_symm _ (prob3_symm _), prob3_H, h1, h2, Prob.gT, if_neg (by simp), prob3_g]
  have hz : (prob3.AAᵀ *ᵥ fun _ => x / 100) i = x / 100 := prob_AAT _ i
  simp only [Pi.sub_apply, Pi.add_apply, Pi.zero_apply, hz]
  rcases hx with rfl | rfl
  · rw [abs_of_nonneg (by norm_num)]
    linarith
  · rw [abs_of_nonpos (by norm_num)]
    linarith

/-- the next state -/
theorem Cyc.next {o : Obj (Ext ℚ)} {N : Int} (hS : Setup (solver ans3) o dim prob3 (fun _ => 0) (1 / 100) 2)
    (ho : o.d.opts = optsC N) {lA uA : Fin dim.nA → Ext ℚ} {l u : Fin dim.nV → Ext ℚ} (hB : BoundsAre o dim lA uA l u)
    {d : Data (Ext ℚ)} {s s' : St (Ext ℚ)} (h : AtHead (solver ans3) o d s) {t : Nat} (hc : Cyc d s t)
    (hp : pass (solver ans3) d s = .ok (.inl s')) : Cyc d s' (t + 1) := by
  have ho' : d.opts = optsC N := by
    obtain ⟨_, _, _, h', _⟩ := hS.head h
    exact h'.trans ho
  obtain ⟨off, y, x, h0, hd, hx, hs, hl, hy1, hy2⟩ := hc
  have hb : OutB s false := ⟨0, hl.outer, le_rfl, by simp⟩
  obtain ⟨ts, ht, hts⟩ := optsC_tol N
  obtain ⟨s4, l4, hend⟩ := pass_quiet hd hs (by rw [ho']; exact ht) (by rw [ho']; rfl) (Cyc.resid hx hy1 hy2 hts 0) hl hp
  have l' : Live d.opts s' (t + 1) 0 := by
    rcases hend with ⟨_, ⟨⟩⟩ | ⟨_, ⟨⟩⟩ | h5
    rcases l4.next h5 with ⟨_, h6, l5, _⟩ | ⟨_, ⟨⟩, _⟩
    injection h6 with h6
    subst h6
    exact l5
  obtain ⟨r', b', c, j, x', v, y', sub, la, ua, _, hb', hsub, hla, hua, hxe, hx', hq, hv, rfl, _⟩ :=
    pass_x h0 hd hS.ans (by rw [ho', ← ho]; exact hS.factor) hS.f0 hs hb hp
  have e : ((fun _ => x) + (1 : ℚ) • fun _ => 1 - 2 * x : Fin dim.nV → ℚ) = fun _ => 1 - x := by
    ext i
    simp only [Pi.add_apply, Pi.smul_apply, smul_eq_mul]
    ring
  have hr : r' = 1 / 100 := by
    have h1 := l'.rho
    rw [ho', ← ho, penalty_fin hS.rho0 hS.factor, hx'.rho] at h1
    injection h1 with h1
    injection h1 with h1
    rw [h1]
    norm_num
  have hbf : b' = false := by
    obtain ⟨j, hj, _, hjb⟩ := hb'
    have := l'.outer
    rw [hj] at this
    injection this with this
    subst this
    simpa using hjb
  subst hr hbf
  rw [ho', if_neg (by simp [optsC, opts])] at hxe
  subst hxe
  rw [e] at hx' hq hv
  have hlin : ((1 / 100 : ℚ) • (prob3.C *ᵥ (fun _ => 1 - x)) + prob3.gT false (1 / 100)) = fun _ => (1 - x) / 100 := by
    have := prob3_H (1 / 100) (1 - x)
    have hQ : prob3.Q *ᵥ (fun _ => 1 - x) = 0 := by
      ext i
      rw [prob_Q]
      simp
    rw [Matrix.add_mulVec, hQ, zero_add, Matrix.smul_mulVec] at this
    rw [this, Prob.gT, if_neg (by simp), prob3_g, add_zero]
    ext i
    ring
  rw [hlin] at hq hv
  have hq2 := (hS.sends hB h).is hsub hla hua false (fun _ => (1 - x) / 100) none none
  have h2 := ansC hq2 (by rcases hx with rfl | rfl <;> norm_num) hq
  obtain ⟨e1, e2, e3⟩ := ans_eq h0 hd hsub hv h2
  have ev : v = fun _ => x := by
    rw [e1]
    rcases hx with rfl | rfl <;> norm_num
  have ep : v - (fun _ => 1 - x) = fun _ => 1 - 2 * (1 - x) := by
    rw [ev]
    ext i
    simp only [Pi.sub_apply]
    ring
  rw [ep, tr_symm _ (prob3_symm _), prob3_H, prob3_H, Prob.gT, if_neg (by simp), prob3_g, add_zero] at hx'
  refine ⟨off, y', 1 - x, h0, hd, by rcases hx with rfl | rfl <;> norm_num, ?_, l', e2, e3⟩
  have ea : alphaOf ((fun _ : Fin dim.nV => 1 - 2 * (1 - x)) ⬝ᵥ fun _ => 1 / 100 * (1 - 2 * (1 - x)))
      ((fun _ : Fin dim.nV => 1 - 2 * (1 - x)) ⬝ᵥ fun _ => 1 / 100 * (1 - x)) = 1 := by
    change alphaOf (∑ _j : Fin 2, (1 - 2 * (1 - x)) * (1 / 100 * (1 - 2 * (1 - x))))
      (∑ _j : Fin 2, (1 - 2 * (1 - x)) * (1 / 100 * (1 - x))) = 1
    rw [Fin.sum_univ_two, Fin.sum_univ_two]
    rcases hx with rfl | rfl <;> norm_num [alphaOf]
  rw [ea] at hx'
  exact hx'

/-- every state of the main loop is of one of these kinds -/
theorem Cyc.head {o : Obj (Ext ℚ)} {N : Int} (hS : Setup (solver ans3) o dim prob3 (fun _ => 0) (1 / 100) 2)
    (ho : o.d.opts = optsC N) {lA uA : Fin dim.nA → Ext ℚ} {l u : Fin dim.nV → Ext ℚ} (hB : BoundsAre o dim lA uA l u)
    {d : Data (Ext ℚ)} {s : St (Ext ℚ)} (h : AtHead (solver ans3) o d s) : ∃ t, Cyc d s t := by
  obtain ⟨s0, h0, hr⟩ := h
  induction hr with
  | start =>
    have h := h0
    have l0 : Live o.d.opts s0 0 0 := by
      obtain ⟨i, hi, hi1, rfl, hf⟩ := h0
      rcases Live.first hi hi1 hf with ⟨s', h1, l, _⟩ | ⟨_, ⟨⟩, _⟩
      injection h1 with h1
      subst h1
      exact l
    obtain ⟨off, h1, hd, hod, _, v, y, sub, la, ua, y0, hx, hb, hs, ha, hb', hq, hv⟩ :=
      enters_x hS.ready hS.holds hS.x0 hS.rho0 hS.ans h
    rw [← hod] at l0
    rw [hod, ho, if_pos (by simp [optsC, opts, Options.default]), prob3_g] at hq hv
    have hq2 := (hS.sends hB ⟨s0, h, .start⟩).is hs ha hb' true (fun _ => 0) o.s.xk y0
    rw [hod, ho] at hq2
    have h2 := ansC hq2 le_rfl hq
    obtain ⟨e1, e2, e3⟩ := ans_eq h1 hd hs hv h2
    refine ⟨0, off, y, 0, h1, hd, Or.inl rfl, ?_, l0, by rw [e2]; ext; norm_num, e3⟩
    have ep : v - (fun _ => 0) = fun _ => 1 - 2 * 0 := by
      rw [e1]
      ext i
      norm_num
    rw [ep] at hx
    exact hx
  | @pass s s' hr hp ih =>
    obtain ⟨t, ih⟩ := ih
    exact ⟨t + 1, ih.next hS ho hB ⟨s0, h0, hr⟩ hp⟩

end Ex

open Ex in
/-- C55, without strong convexity: the objective 0 is convex, every answer of the QP solver is exact, the feasible set is
bounded, and yet the run uses up every iteration limit `N` (below the range in which `int` counters overflow).  The
iterates alternate between (0,0) and (1,1); neither passes the stationarity test, so the penalty parameter is never
increased. -/
theorem C55_cycles (N : Int) (h0 : 0 ≤ N) (hN : N ≤ 700000000) : ∃ o o' : Obj (Ext ℚ),
    loadDense (solver ans3) (Obj.new (optsC N) 2 0 1) args3 = .ok (.successfulReturn, o) ∧ o.d.opts.maxIter = N ∧
    Fixed (solver ans3) o prob3 ![fin 0, fin 0] (fun _ => pinf) (fun _ => ninf) ![fin 1, fin 1] (fun _ => 0) (1 / 100) 2
      (2221 / 10000000000000) 100000000 ∧ (prob3.Qᵀ = prob3.Q ∧ ∀ v, 0 ≤ v ⬝ᵥ (prob3.Q *ᵥ v)) ∧
    ∀ fuel, N.toNat + 1 ≤ fuel → runSolver (solver ans3) fuel o = .ok (some (.maxIterationsReached, o')) := by
  have ha := argsOf_are (v := fun _ => 0) (Q := [0, 0, 0, 0]) (g := [0, 0]) (lbL := [0])
    (lbR := [0]) (lb := none) (ub := some (emb [1, 1])) (x0 := none) rfl rfl rfl rfl (by rintro v ⟨⟩)
    (by rintro v ⟨⟩; rfl) (Or.inl ⟨rfl, rfl⟩)
  obtain ⟨o, hl, hS, hsp, ho, hst⟩ := setup_of ha
    (solver_fin ans3) (op := optsC N) (r0 := 1 / 100) (f := 2) (show opts.rho0 = _ by decide +kernel)
    (show opts.factor = _ by decide +kernel) (by decide) (loadC N)
  have hB : BoundsAre o dim ![fin 0, fin 0] (fun _ => pinf) (fun _ => ninf) ![fin 1, fin 1] := by
    refine ⟨?_, ?_, ?_, ?_⟩
    · rw [hst.lbA]; decide +kernel
    · rw [hst.ubA]; decide +kernel
    · rw [hst.lb]; decide +kernel
    · rw [hst.ub]; decide +kernel
  have hmi : o.d.opts.maxIter = N := by rw [ho]; rfl
  have hqs : o.d.opts.qpSolver = 0 := by rw [ho]; rfl
  have hans : AnsBnd (solver ans3) 3 := by
    intro k q
    simp only [solver, envOf]
    split <;> simp [good]
  have huse : DenseUse (solver ans3) 3 dim true o :=
    .load _ _ false args3 (.new (optsC N) 2 0 1 (by decide) rfl rfl) ha.fits (by simp [args3, argsOf]) hl
  have hsm : Small o.d.opts 3 := by
    refine ⟨by omega, ?_, ?_⟩ <;> rw [hmi] <;> simp only [intMax] <;> omega
  obtain ⟨q, hq, _⟩ := (C36_dense (solver ans3) 3 dim true o hans huse).2 rfl hsm (N.toNat + 1)
  have hne := C18_terminates (solver ans3) o (N.toNat + 1) (by rw [hmi])
  cases q with
  | none => exact absurd hq hne
  | some w =>
  obtain ⟨rv, o'⟩ := w
  have hrv : rv = .maxIterationsReached := by
    obtain ⟨i, hi, hi2⟩ := initializeSolver_total (e := solver ans3) hS.ready
    have hi1 : i.1 = .successfulReturn := by
      rw [C33_code hS.ready.dims hS.ready.nV hi, hqs, choiceCode_zero, if_neg (by simp [hsp])]
    obtain ⟨off, hdok, _, _, _, _, _, _, _, _, hosqp, _⟩ := hi2 hi1
    have hnosqp : ¬ ∃ Q A, i.2.d.sub = some (.osqp Q A) := by
      intro h
      have := (hosqp h).1
      rw [hqs] at this
      cases this
    have hd := (run_ended hq hi hi1).1
    have hsub : ∀ r, ¬ SubFailed (solver ans3) o' r := by
      intro r hf
      cases hf with
      | answer sub req hs hreq _ hbad _ =>
        refine hbad ?_
        rw [hd] at hs
        cases sub with
        | osqp Q A => exact absurd ⟨Q, A, hs⟩ hnosqp
        | dense a b c f => simp only [QpOk, solver, envOf, hreq, good]
        | sparse a b c f => simp only [QpOk, solver, envOf, hreq, good]
      | osqp _ Q A hs _ =>
        rw [hd] at hs
        exact hnosqp ⟨Q, A, hs⟩
    have hrho : (o.d.opts.maxRho <. o.d.opts.rho0) = false := by
      rw [ho]
      show (opts.maxRho <. opts.rho0) = false
      decide +kernel
    have key : rv = .maxIterationsReached ∨ rv ≠ .successfulReturn ∧ o'.s.rho = some o.d.opts.rho0 := by
      obtain ⟨j, hj, hcase⟩ := runSolver_inv hq
      rw [hi] at hj
      injection hj with hj
      subst hj
      rcases hcase with ⟨hne, _⟩ | ⟨_, _, hf | ⟨s0, hf, _⟩⟩
      · exact absurd hi1 hne
      · rcases Live.first hi hi1 hf with ⟨_, ⟨⟩, _⟩ | ⟨w, hw, h1, _, _, h2, _⟩
        injection hw with hw
        subst hw
        exact Or.inr ⟨h1, h2⟩
      · obtain ⟨_, s, hs, hp⟩ := run_end hq ⟨i, hi, hi1, rfl, hf⟩
        obtain ⟨t, off, y, x, h0, hdi, hx, hxs, hlv, hy1, hy2⟩ := Cyc.head hS ho hB hs
        have ho' : o'.d.opts = optsC N := by
          obtain ⟨_, _, _, h', _⟩ := hS.head hs
          exact h'.trans ho
        obtain ⟨ts, ht, hts⟩ := optsC_tol N
        obtain ⟨s4, l4, hend⟩ := pass_quiet hdi hxs (by rw [ho']; exact ht) (by rw [ho']; rfl) (Cyc.resid hx hy1 hy2 hts 0) hlv hp
        rw [ho', ← ho] at l4 hend
        rcases hend with ⟨_, h5⟩ | ⟨h5, _⟩ | h5
        · injection h5 with h5
          injection h5 with h5
          exact Or.inl h5
        · rw [penalty, hrho] at h5
          cases h5
        · rw [ho, ← ho'] at l4
          rcases l4.next h5 with ⟨_, ⟨⟩, _⟩ | ⟨w, hw, h1, h2, _⟩
          injection hw with hw
          subst hw
          refine Or.inr ⟨h1, ?_⟩
          rw [ho, ← ho']
          exact h2.rho
    rcases key with key | ⟨k1, k2⟩
    · exact key
    · rcases C19_codes hq with ⟨j, hj, hne, _⟩ | ⟨_, _, _, _, ⟨h1, _⟩ | ⟨h1, _⟩ | ⟨_, _, rho, h1, h2⟩ | ⟨h1, _⟩⟩
      · rw [hi] at hj
        injection hj with hj
        subst hj
        exact absurd hi1 hne
      · exact absurd h1 k1
      · exact h1
      · rw [k2] at h1
        injection h1 with h1
        subst h1
        rw [hrho] at h2
        cases h2
      · exact absurd h1 (hsub _)
  subst hrv
  refine ⟨o, o', hl, hmi, ⟨hS, hB, exact3, by rw [ho]; rfl, by rw [ho]; show opts.statTol = _; decide +kernel,
    by rw [ho]; show opts.maxRho = _; decide +kernel⟩,
    prob_psd le_rfl, fun fuel hf => ?_⟩
  rw [C18_fuel (solver ans3) o (N.toNat + 1) fuel (by rw [hmi]) hf]
  exact hq

open Ex in
/-- an object and a QP solver as in `C55_enough`; `Q` is strongly convex -/
theorem C55_example : ∃ o o' : Obj (Ext ℚ), Fixed (solver ans1) o prob1 ![fin 1, fin 0] (fun _ => pinf) (fun _ => ninf)
    (fun _ => pinf) (fun _ => 0) (1 / 100) 2 (2221 / 10000000000000) 100000000 ∧ StronglyConvex prob1.Q 2 ∧
    runSolver (solver ans1) 20 o = .ok (some (.successfulReturn, o')) ∧ ∃ s0, Enters (solver ans1) o o'.d s0 := by
  obtain ⟨o, o', hS, _, ho, hB, hr, _⟩ := wit1
  refine ⟨o, o', ⟨hS, hB, exact1, by rw [ho]; rfl, by rw [ho]; decide +kernel, by rw [ho]; decide +kernel⟩, ?_, hr, ?_⟩
  · refine ⟨(prob_psd (c := 2) (by norm_num)).1, by norm_num, fun v => ?_⟩
    rw [dotProduct, dotProduct, Finset.mul_sum]
    refine Finset.sum_le_sum fun i _ => ?_
    rw [prob_Q]
    nlinarith
  · obtain ⟨i, hi, ⟨hne, h⟩ | ⟨h1, hd, hf | ⟨s0, hf, _⟩⟩⟩ := runSolver_inv hr
    · injection h with h _
      exact absurd h.symm hne
    · rcases Live.first hi h1 hf with ⟨_, ⟨⟩, _⟩ | ⟨w, hw, h2, _⟩
      injection hw with hw
      subst hw
      exact absurd rfl h2
    · refine ⟨s0, i, hi, h1, hd, ?_⟩
      rw [show o'.d = i.2.d from hd]
      exact hf

end LCQ
