import Verif.Lemmas.Again
import Verif.Props.CertifyEx
import Verif.Props.SafetySparse

/-!
# C34: running a second time without loading
-/

set_option linter.unusedSectionVars false

namespace LCQ
open Scalar Ext
open scoped Matrix

section anyArith
variable {α : Type} [Scalar α] {n : Dims} {o : Obj α} {e e' : Env α}

/-- C34: a run that passed the initialisation leaves no box bounds for the next one. -/
theorem C34_cleared {fuel : Nat} {r i : RV × Obj α} (hi : initializeSolver e o = .ok i) (h1 : i.1 = .successfulReturn)
    (hr : runSolver e fuel o = .ok (some r)) : r.2.d.lbTmp = none ∧ r.2.d.ubTmp = none := by
  rw [run_data hr hi h1]
  obtain ⟨_, _, _, _, _, _, _, _, _, _, h⟩ := initializeSolver_ok hi h1
  rw [h]
  exact ⟨rfl, rfl⟩

/-- C34: whatever box bounds were loaded, a second run hands infinite bounds to qpOASES. -/
theorem C34_box {fuel : Nat} {r i j : RV × Obj α} (hn : o.d.dims = some n) (hq : o.d.opts.qpSolver = 0 ∨ o.d.opts.qpSolver = 1)
    (hi : initializeSolver e o = .ok i) (h1 : i.1 = .successfulReturn)
    (hr : runSolver e fuel o = .ok (some r)) (hj : initializeSolver e' r.2 = .ok j) (h2 : j.1 = .successfulReturn) :
    j.2.d.lb = some (List.replicate n.nV (-. inf)) ∧ j.2.d.ub = some (List.replicate n.nV inf) := by
  obtain ⟨c1, c2⟩ := C34_cleared hi h1 hr
  have hd := run_data hr hi h1
  obtain ⟨_, _, _, _, _, _, _, _, _, _, h⟩ := initializeSolver_ok hi h1
  refine init_unbounded ?_ c1 c2 ?_ hj h2
  · rw [hd, h]; exact hn
  · rw [hd, h]; exact hq

/-- C34: after a run with OSQP that passed the initialisation a second run reads past the end of the multipliers. -/
theorem C34_osqp {fuel : Nat} {r i : RV × Obj α} (hn : o.d.dims = some n) (hV : n.nV ≠ 0) (hA : n.nA ≠ 0)
    (hq : o.d.opts.qpSolver = 2) (hi : initializeSolver e o = .ok i) (h1 : i.1 = .successfulReturn)
    (hr : runSolver e fuel o = .ok (some r)) (fuel' : Nat) : runSolver e' fuel' r.2 = .error .oob := by
  obtain ⟨_, _, k1, k2, k3, k4, k5, k6⟩ := init_osqp_inv hn hq hi h1
  obtain ⟨y, hy, ly⟩ := run_len hr hi h1 k4 k3
  have hd := run_data hr hi h1
  rw [runSolver, initializeSolver, chooseSolver, hd, k5, initd_some, ok_bind, k6, if_neg (by omega), if_neg (by omega),
    if_pos hq, k1, k2, if_neg (by simp), hy, osqpDualGuess_short (by omega) (by omega)]
  rfl

/-- C34: when an OSQP workspace exists and OSQP cannot be set up again, e.g. after another problem has been loaded, the
released workspace is used: the run has no defined result. -/
theorem C34_workspace (hn : o.d.dims = some n) (hq : o.d.opts.qpSolver = 2) (hw : o.s.work = .live)
    (hi : initializeSolver e o = .ok i) (h1 : i.1 = .successfulReturn) (hs : ∀ r, (e.qp o.s.calls r).setup = false)
    (fuel : Nat) (v : Option (RV × Obj α)) : runSolver e fuel o ≠ .ok v := by
  intro h
  obtain ⟨_, _, k1, k2, _⟩ := init_osqp_inv hn hq hi h1
  obtain ⟨w1, ⟨Q, A, w2⟩, w3⟩ := init_osqp_work hq hi h1
  rw [hw] at w1
  injection w1 with w1
  rw [runSolver, hi, ok_bind, if_neg (by simp [h1])] at h
  simp only [bind_eq_ok, firstStep] at h
  obtain ⟨f, ⟨s, hg, r, hr, _⟩, _⟩ := h
  obtain ⟨gk, rfl⟩ := firstGradient_inv hg
  simp only [solveQP, bind_eq_ok] at hr
  obtain ⟨p, hp, _⟩ := hr
  rw [subSolve, w2, initd_some, ok_bind] at hp
  simp only [osqpSolve, k1, k2, ne_eq, not_true_eq_false, or_self, if_false, bind_eq_ok] at hp
  obtain ⟨_, _, _, _, _, _, _, _, _, _, _, _, _, _, _, _, hp⟩ := hp
  obtain ⟨hp, _⟩ := osqpFinish_inv hp
  apply hp
  rw [w3, hs, ← w1]
  rfl

/-- C34: when a sparse problem has been loaded and run with qpOASES, a second run makes no penalty update: it either
keeps its initial penalty or is undefined. -/
theorem C34_sparse {a : SparseArgs α} {o' : Obj α} (hn : o.d.dims = some n) (hV : n.nV ≠ 0) (hC : n.nComp ≠ 0)
    (hf : a.Fits n) (hl : loadSparse e o a = .ok (.successfulReturn, o')) {d d' : Data α} {s0 s0' : St α}
    (h1 : Enters e o' d s0) {fuel fuel' : Nat} {r r' : RV × Obj α} (hr : runSolver e fuel o' = .ok (some r))
    (h2 : Enters e' r.2 d' s0') (hr' : runSolver e' fuel' r.2 = .ok (some r')) : r'.2.s.outer = some 0 := by
  obtain ⟨Q, L, R, C, hQ, hL, hR, iQ, iL, iR, hCs, hCi, h'⟩ := loadSparse_ok (e := e) hn hV hC hf
  rcases h' with ⟨_, _, h'⟩ | ⟨_, _, _, h'⟩ | ⟨_, _, _, _, h'⟩ | ⟨_, _, g, c, hg, lg, hc, h'⟩
  · rw [h'] at hl; injection hl with hl; injection hl with hl _; cases hl
  · rw [h'] at hl; injection hl with hl; injection hl with hl _; cases hl
  · rw [h'] at hl; injection hl with hl; injection hl with hl _; cases hl
  · rw [h'] at hl
    injection hl with hl
    injection hl with _ hl
    obtain ⟨V, _, hCs'⟩ := symProdSparse_total iL.trim iR.trim
    rw [hCs', hc] at hCs
    injection hCs with hCs
    have hlen : c.x.length = c.P n.nV ∧ 0 < c.P n.nV := by
      split at hCs
      · cases hCs
      · rename_i hne
        injection hCs with hCs
        subst hCs
        rw [cscOf_P _ _ _ le_rfl]
        exact ⟨by simp [cscOf], by omega⟩
    obtain ⟨iC, _⟩ := hCi c hc
    have o1 : o'.d.dims = some n := by rw [← hl]; exact hn
    have o2 : o'.d.sparse = true := by rw [← hl]; rfl
    have o3 : o'.d.Qs = some Q.trim := by rw [← hl]; rfl
    have o4 : o'.d.Cs = some c := by rw [← hl]; rfl
    obtain ⟨k1, k2⟩ := run_idx hr h1
    obtain ⟨i, hi, hi1, rfl, hfst⟩ := h1
    obtain ⟨j, hj, hj1, rfl, hsnd⟩ := h2
    obtain ⟨_, _, _, _, _, _, _, _, _, _, ei⟩ := initializeSolver_ok hi hi1
    obtain ⟨_, _, _, _, _, _, _, _, _, _, ej⟩ := initializeSolver_ok hj hj1
    have f1 := firstStep_idx (n := n) (Q := Q.trim) (C := c) hfst (by rw [ei]; exact o1) (by rw [ei]; exact o2)
      (by rw [ei]; exact o3) (by rw [ei]; exact o4) iQ.trim.1.toValidPtr iC.1.toValidPtr iQ.trim.2.2 iC.2.2
    have f2 := firstStep_idx (n := n) (Q := Q.trim) (C := c) hsnd (by rw [ej, k2, ei]; exact o1) (by rw [ej, k2, ei]; exact o2)
      (by rw [ej, k2, ei]; exact o3) (by rw [ej, k2, ei]; exact o4) iQ.trim.1.toValidPtr iC.1.toValidPtr iQ.trim.2.2 iC.2.2
    have g1 : j.2.s.idxC = r.2.s.idxC := by rw [ej]
    refine run_no_bump (C := c) hr' ⟨j, hj, hj1, rfl, hsnd⟩ (by rw [ej, k2, ei]; exact o2) (by rw [ej, k2, ei]; exact o4) ?_ ?_
    · rw [f2.1, g1, k1, f1.1]; omega
    · rw [f2.2, ej]

end anyArith

section exact
variable {K : Type} [Field K] [LinearOrder K] [IsStrictOrderedRing K] {n : Dims} {P : Prob K n} {e e' : Env (Ext K)} {o : Obj (Ext K)}
  {x0 : Fin n.nV → K} {r0 f : K} {d : Data (Ext K)}

/-- C34: after a run with dense qpOASES the object is set up for another run of the same problem from the last iterate, but
without its box constraints.  The theorems about exact arithmetic hold for the second run with these bounds. -/
theorem C34_again (hS : Setup e o n P x0 r0 f) (hq : o.d.opts.qpSolver = 0) {lA uA : Fin n.nA → Ext K} {l u : Fin n.nV → Ext K}
    (hB : BoundsAre o n lA uA l u) {N : Int} (he : AnsBnd e N) (hsm : Small o.d.opts N) (hf : FinAns e') {s0 : St (Ext K)}
    (h0 : Enters e o d s0) {fuel : Nat} {r : RV × Obj (Ext K)} (hr : runSolver e fuel o = .ok (some r)) :
    ∃ x, Setup e' r.2 n P x r0 f ∧ BoundsAre r.2 n lA uA (fun _ => ninf) (fun _ => pinf) := by
  obtain ⟨q, hq', hall⟩ := runSolver_total hS.ready he hsm (by omega) fuel
  rw [hr] at hq'
  injection hq' with hq'
  obtain ⟨i, hi, h⟩ := hall r hq'.symm
  obtain ⟨i', hi', h1, rfl, hfst⟩ := h0
  rw [hi] at hi'
  injection hi' with hi'
  subst hi'
  rcases h with ⟨h, _⟩ | ⟨_, _, _, hdim, h⟩
  · exact absurd h1 h
  · obtain ⟨hready, hopt, hlt, hut⟩ := h hq
    obtain ⟨s, _, hat, hp⟩ : ∃ s, True ∧ AtHead e o r.2.d s ∧ pass e r.2.d s = .ok (.inr (r.1, r.2.s)) := by
      obtain ⟨_, s, a, b⟩ := run_end (rv := r.1) (o' := r.2) hr ⟨i, hi, h1, rfl, hfst⟩
      exact ⟨s, trivial, a, b⟩
    obtain ⟨x, p, a, _, _, _, hx⟩ := pass_end hS hat hp
    have hd := run_data hr hi h1
    obtain ⟨_, hI⟩ := init_x hS.ready hS.holds hi h1
    have hD := hI.2.1
    obtain ⟨_, _, _, _, _, _, _, _, _, _, ei⟩ := initializeSolver_ok hi h1
    refine ⟨x + a • p, ⟨hready, ⟨hdim, ?_, ?_, ?_, ?_⟩, hx, ?_, ?_, hS.f0, hf⟩, ⟨?_, ?_, ?_, ?_⟩⟩
    · obtain ⟨m1, m2, m3, m4⟩ := hS.holds.mats
      refine ⟨?_, ?_, ?_, ?_⟩ <;> rw [hd, ei]
      · exact m1
      · exact m2
      · exact m3
      · exact m4
    · rw [hd, ei]; exact hS.holds.C
    · rw [hd, ei]; exact hS.holds.g
    · rcases hS.holds.low with ⟨l1, l2, l3, l4, l5, l6⟩ | ⟨l1, l2⟩
      · left
        obtain ⟨p1, p2⟩ := init_noLow hi h1 l1 l2
        rw [← hd] at p1 p2
        refine ⟨?_, ?_, l3, l4, p1.trans l5, p2.trans l6⟩ <;> rw [hd, ei]
        · exact l1
        · exact l2
      · right
        rw [hd, ei]
        exact ⟨l1, l2⟩
    · rw [hopt]; exact hS.rho0
    · rw [hopt]; exact hS.factor
    · rw [hd, ei]; exact hB.lbA
    · rw [hd, ei]; exact hB.ubA
    · rw [hlt]; simp [orFill]
    · rw [hut]; simp [orFill]

end exact

end LCQ

namespace LCQ.Ex
open Scalar Ext
open scoped Matrix

/-- minimises `x² + y² + g'(x,y)` over the unit square -/
def ans5 (a b : ℚ) : List ℚ × List ℚ × List ℚ :=
  ([min 1 (max 0 (-a/2)), min 1 (max 0 (-b/2))],
   [max (2 * min 1 (max 0 (-a/2)) + a) 0, max (2 * min 1 (max 0 (-b/2)) + b) 0],
   [min (2 * min 1 (max 0 (-a/2)) + a) 0, min (2 * min 1 (max 0 (-b/2)) + b) 0])

/-- minimises `x² + y² + g'(x,y)` over the positive orthant -/
def ans6 (a b : ℚ) : List ℚ × List ℚ × List ℚ :=
  ([max 0 (-a/2), max 0 (-b/2)], [2 * max 0 (-a/2) + a, 2 * max 0 (-b/2) + b], [0, 0])

/-- `min (x-2)² + y²` subject to `0 ≤ x ⟂ y ≥ 0`, `x, y ≤ 1` -/
abbrev prob5 := prob [2, 0, 0, 2] [-4, 0] [0] [0]

/-- its arguments -/
def args5 := argsOf [2, 0, 0, 2] [-4, 0] [0] [0] none (some (emb [1, 1])) none

theorem exact5 : ExactOn (solver ans5) dim (IsSub prob5 ![fin 0, fin 0] (fun _ => pinf) (fun _ => ninf) ![fin 1, fin 1]) := by
  apply solver_exact
  intro g
  let c (a : ℚ) : ℚ := min 1 (max 0 (-a/2))
  refine ⟨![c (g 0), c (g 1)], ![max (2 * c (g 0) + g 0) 0, max (2 * c (g 1) + g 1) 0],
    ![min (2 * c (g 0) + g 0) 0, min (2 * c (g 1) + g 1) 0], rfl, ?_⟩
  have k0 : ∀ a, 0 ≤ c a := fun a => le_min zero_le_one (le_max_left _ _)
  have k1 : ∀ a, c a ≤ 1 := fun a => min_le_left _ _
  have kz : ∀ a, 0 < max (2 * c a + a) 0 → 0 = c a := by
    intro a h
    simp only [lt_max_iff, lt_irrefl, or_false] at h
    rcases le_total (-a/2) 0 with h' | h'
    · simp only [c, max_eq_left h']
      simp
    · have : c a ≤ -a/2 := by
        simp only [c, max_eq_right h']
        exact min_le_right _ _
      linarith
  have kw : ∀ a, min (2 * c a + a) 0 < 0 → 1 = c a := by
    intro a h
    simp only [min_lt_iff, lt_irrefl, or_false] at h
    rcases le_total 1 (max 0 (-a/2)) with h' | h'
    · simp only [c, min_eq_left h']
    · have : -a/2 ≤ c a := by
        simp only [c, min_eq_right h']
        exact le_max_right _ _
      linarith
  have ks : ∀ a, 2 * c a + a = max (2 * c a + a) 0 + min (2 * c a + a) 0 := by
    intro a
    rw [add_comm (max _ _), min_add_max, add_zero]
  refine kkt_of (c := 2) (Fin.forall_fin_two.mpr ⟨?_, ?_⟩) (fun i => rfl) (fun i => rfl) (Fin.forall_fin_two.mpr ⟨?_, ?_⟩)
    (Fin.forall_fin_two.mpr ⟨ks _, ks _⟩) (Fin.forall_fin_two.mpr ⟨fun h => congrArg fin (kz _ h), fun h => congrArg fin (kz _ h)⟩)
    (Fin.forall_fin_two.mpr ⟨fun h => absurd h (not_lt.mpr (le_max_right _ _)), fun h => absurd h (not_lt.mpr (le_max_right _ _))⟩)
    (Fin.forall_fin_two.mpr ⟨fun h => absurd h (not_lt.mpr (min_le_right _ _)), fun h => absurd h (not_lt.mpr (min_le_right _ _))⟩)
    (Fin.forall_fin_two.mpr ⟨fun h => congrArg fin (kw _ h), fun h => congrArg fin (kw _ h)⟩)
  · simpa using k0 (g 0)
  · simpa using k0 (g 1)
  · simpa using k1 (g 0)
  · simpa using k1 (g 1)

theorem exact6 : ExactOn (solver ans6) dim (IsSub prob5 ![fin 0, fin 0] (fun _ => pinf) (fun _ => ninf) (fun _ => pinf)) := by
  apply solver_exact
  intro g
  let c (a : ℚ) : ℚ := max 0 (-a/2)
  refine ⟨![c (g 0), c (g 1)], ![2 * c (g 0) + g 0, 2 * c (g 1) + g 1], 0, rfl, ?_⟩
  have k0 : ∀ a, 0 ≤ c a := fun a => le_max_left _ _
  have kp : ∀ a, 0 ≤ 2 * c a + a := by
    intro a
    have : -a/2 ≤ c a := le_max_right _ _
    linarith
  have kz : ∀ a, 0 < 2 * c a + a → 0 = c a := by
    intro a h
    rcases max_choice 0 (-a/2) with h' | h'
    · exact h'.symm
    · simp only [c, h'] at h
      linarith
  refine kkt_of (c := 2) (Fin.forall_fin_two.mpr ⟨?_, ?_⟩) (fun i => rfl) (fun i => rfl) (fun i => rfl)
    (Fin.forall_fin_two.mpr ⟨?_, ?_⟩) (Fin.forall_fin_two.mpr ⟨fun h => congrArg fin (kz _ h), fun h => congrArg fin (kz _ h)⟩)
    (Fin.forall_fin_two.mpr ⟨fun h => absurd h (not_lt.mpr (kp _)), fun h => absurd h (not_lt.mpr (kp _))⟩)
    (fun i h => absurd h (lt_irrefl _)) (fun i h => absurd h (lt_irrefl _))
  · simpa using k0 (g 0)
  · simpa using k0 (g 1)
  · simp
  · simp

/-- load and run twice -/
def go2 (e e' : Env (Ext ℚ)) (op : Options (Ext ℚ)) (a : DenseArgs (Ext ℚ)) (fuel : Nat) :
    M (Option (RV × Obj (Ext ℚ))) := do
  let r ← loadDense e (Obj.new op 2 0 1) a
  match ← runSolver e fuel r.2 with
  | none => .ok none
  | some q => runSolver e' fuel q.2

theorem look5 : look (go (solver ans5) opts args5 20) = some ⟨.successfulReturn, some 2, some 0, some (fin (1/100)),
    some (emb [1, 0]), some (emb [0, 1/100]), some (emb [-2, 0, 0, 0])⟩ := by decide +kernel

theorem look6 : look (go2 (solver ans5) (solver ans6) opts args5 20) = some ⟨.successfulReturn, some 2, some 0, some (fin (1/100)),
    some (emb [2, 0]), some (emb [0, 1/50]), some (emb [0, 0, 0, 0])⟩ := by decide +kernel

theorem load5 : (loadDense (solver ans5) (Obj.new opts 2 0 1) args5).map (·.1) = .ok .successfulReturn := by rfl

/-- C34 is false for the box constraints: the first run solves `min (x-2)² + y²` subject to `0 ≤ x ⟂ y ≥ 0` and `x, y ≤ 1`
at `(1, 0)`; the second run of the same object with exact QP solutions reports success at `(2, 0)`, where `x ≤ 1` is violated. -/
theorem C34_fails : ∃ o o1 o2, loadDense (solver ans5) (Obj.new opts 2 0 1) args5 = .ok (.successfulReturn, o) ∧
    args5.Are dim prob5 0 ∧
    ExactOn (solver ans5) dim (IsSub prob5 ![fin 0, fin 0] (fun _ => pinf) (fun _ => ninf) ![fin 1, fin 1]) ∧
    runSolver (solver ans5) 20 o = .ok (some (.successfulReturn, o1)) ∧ o1.s.xk = some (emb [1, 0]) ∧
    args5.bnds.Feas prob5 ![1, 0] ∧
    BoundsAre o1 dim ![fin 0, fin 0] (fun _ => pinf) (fun _ => ninf) (fun _ => pinf) ∧
    ExactOn (solver ans6) dim (IsSub prob5 ![fin 0, fin 0] (fun _ => pinf) (fun _ => ninf) (fun _ => pinf)) ∧
    runSolver (solver ans6) 20 o1 = .ok (some (.successfulReturn, o2)) ∧ o2.s.xk = some (emb [2, 0]) ∧
    ¬ args5.bnds.Feas prob5 ![2, 0] := by
  have ha : args5.Are dim prob5 0 := argsOf_are (by simp) (by simp) (by simp) (by simp) (by rintro v ⟨⟩)
    (by rintro v ⟨⟩; simp [emb]) (Or.inl ⟨rfl, rfl⟩)
  obtain ⟨o, hl, hS, _, hop, hst⟩ := setup_of ha (solver_fin ans5) (r0 := 1 / 100) (f := 2)
    (by decide +kernel) (by decide +kernel) (by norm_num) load5
  obtain ⟨o1, h1, _, _, _, hx1, _⟩ := look_inv hl look5
  have hq : o.d.opts.qpSolver = 0 := by rw [hop]; rfl
  have h2 := look6
  simp only [go2, hl, ok_bind, h1] at h2
  obtain ⟨o2, hr2, hx2⟩ : ∃ o2, runSolver (solver ans6) 20 o1 = .ok (some (.successfulReturn, o2)) ∧
      o2.s.xk = some (emb [2, 0]) := by
    cases hr : runSolver (solver ans6) 20 o1 with
    | error x => rw [hr] at h2; cases h2
    | ok q =>
      rw [hr] at h2
      cases q with
      | none => cases h2
      | some p =>
        simp only [look, Option.some.injEq, Look.mk.injEq] at h2
        exact ⟨p.2, by rw [← h2.1], h2.2.2.2.2.1⟩
  have hB : BoundsAre o dim ![fin 0, fin 0] (fun _ => pinf) (fun _ => ninf) ![fin 1, fin 1] :=
    ⟨hst.lbA, hst.ubA, hst.lb, hst.ub⟩
  obtain ⟨s, hat, _⟩ := run_last h1
  obtain ⟨s0, h0, _⟩ := hat
  have he : AnsBnd (solver ans5) 3 := by
    intro k q
    simp only [solver, envOf]
    split <;> exact ⟨(by decide : (-3 : Int) ≤ 3), (by decide : (3 : Int) ≤ 3)⟩
  obtain ⟨_, _, hB1⟩ := C34_again hS hq hB he (by rw [hop]; exact ⟨by decide, by decide, by decide⟩) (solver_fin ans6) h0 h1
  refine ⟨o, o1, o2, hl, ha, exact5, h1, hx1, ?_, hB1, exact6, hr2, hx2, ?_⟩
  · refine ⟨fun i => i.elim0, ?_, ?_, ?_⟩
    · unfold Within; decide +kernel
    · unfold Within; decide +kernel
    · unfold Within; decide +kernel
  · intro h
    have := (h.box 0).2
    revert this
    decide +kernel

/-- load a sparse problem and run twice -/
def srun2 (e e' : Env (Ext ℚ)) (k : Int) (fuel : Nat) : M (Option (RV × Obj (Ext ℚ))) := do
  match ← Ex.srun e k fuel with
  | none => .ok none
  | some r => runSolver e' fuel r.2

/-- the solver finds (1, 0) with multipliers in the sign convention of OSQP -/
def envO : Env (Ext ℚ) := envOf fun _ _ => good [1, 0] [0, 199/100]

/-- return code and outer iterations -/
def code (r : M (Option (RV × Obj (Ext ℚ)))) : Except Fault (Option (RV × Option Int)) :=
  r.map fun q => q.map fun q => (q.1, q.2.s.outer)

-- the situations of `C34_sparse` occur: a second run without penalty update, and one that needs an update
example : code (srun2 env env 1 20) = .ok (some (.successfulReturn, some 0)) := by decide +kernel

example : code (srun2 env envPen 1 20) = .error .oob := by decide +kernel

-- the situation of `C34_osqp` occurs
example : code (srun envO 2 20) = .ok (some (.successfulReturn, some 0)) := by decide +kernel

example : code (srun2 envO envO 2 20) = .error .oob := by decide +kernel

/-- load a sparse problem, run OSQP, load again and run with another solver -/
def srunLoad (e e' : Env (Ext ℚ)) : M (Option (RV × Obj (Ext ℚ))) := do
  match ← Ex.srun e 2 20 with
  | none => .ok none
  | some r => do
    let l ← loadSparse e' r.2 sargs
    runSolver e' 20 l.2

-- the situation of `C34_workspace` occurs: the workspace exists and a second run cannot set it up
example : code (srunLoad envO envO) = .ok (some (.successfulReturn, some 0)) := by decide +kernel

example : code (srunLoad envO (envOf fun _ _ => { good [1, 0] [0, 199/100] with setup := false })) = .error .uaf := by
  decide +kernel

end LCQ.Ex
