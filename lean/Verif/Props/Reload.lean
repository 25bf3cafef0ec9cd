import Verif.Lemmas.Reload
import Verif.Props.Again
import Verif.Props.Classify

/-!
# C35: loading another problem into a used object
-/

set_option linter.unusedSectionVars false

namespace LCQ
open Scalar Ext
open scoped Matrix

section anyArith
variable {α : Type} [Scalar α] {n : Dims} {o : Obj α} {e : Env α} {a : DenseArgs α}

/-- a new object with the options of `o`, created at the moment when `o` is reloaded (the QP solver, the random numbers
and the printed text go on from there) -/
def freshLike (o : Obj α) (n : Dims) : Obj α :=
  let f : Obj α := Obj.new o.d.opts n.nV n.nC n.nComp
  { f with s := { f.s with calls := o.s.calls, rnd := o.s.rnd, out := o.s.out } }

/-- nothing is left over from earlier problems that would count for `a`: no lower complementarity bounds, no box
bounds, no record of the dynamic penalty rule -/
structure NoLeft (o : Obj α) (a : DenseArgs α) : Prop where
  low : a.lbL = none → a.lbR = none → o.d.lbL = none ∧ o.d.lbR = none ∧ o.d.gPhi = none ∧ o.d.phiConst = zero
  lb : a.lb = none → o.d.lbTmp = none
  ub : a.ub = none → o.d.ubTmp = none
  hist : o.s.hist = [] ∨ o.d.opts.nDyn = 0

/-- what can be observed after a run -/
structure SameEnd (r r' : RV × Obj α) : Prop where
  code : r.1 = r'.1
  xk : r.2.s.xk = r'.2.s.xk
  yk : r.2.s.yk = r'.2.s.yk
  algo : r.2.s.algo = r'.2.s.algo
  stats : r.2.s.stats = r'.2.s.stats
  out : r.2.s.out = r'.2.s.out
  calls : r.2.s.calls = r'.2.s.calls
  rnd : r.2.s.rnd = r'.2.s.rnd

theorem Built.fresh (hb : Built o n) : Built (freshLike o n) n := by
  have h := Built.new (α := α) o.d.opts (nV := n.nV) (nC := n.nC) (nComp := n.nComp)
    (by have := hb.nV; have := hb.nComp; omega)
  simp only [Int.toNat_natCast] at h
  exact { h with }

theorem freshLike_d (hb : Built o n) : (freshLike o n).d = { (Obj.blank o.d.opts).d with dims := some n } := by
  have := hb.nV
  have := hb.nComp
  simp only [freshLike, Obj.new]
  rw [if_neg (by omega), if_neg (by omega), if_neg (by omega)]
  simp

theorem freshLike_hist (hb : Built o n) : (freshLike o n).s.hist = [] := by
  have := hb.nV
  have := hb.nComp
  simp only [freshLike, Obj.new]
  rw [if_neg (by omega), if_neg (by omega), if_neg (by omega)]
  rfl

/-- C35: loading a dense problem into a used object gives the same return code as loading it into a new object. -/
theorem C35_load (hb : Built o n) (hf : a.Fits n) : ∃ c q q', loadDense e o a = .ok (c, q) ∧
    loadDense e (freshLike o n) a = .ok (c, q') := by
  have hb' := hb.fresh
  rcases loadDense_ok (e := e) hb.dims hb.nV hb.nComp hf with ⟨h1, _, h⟩ | ⟨h1, h2, _, h⟩ | ⟨h1, h2, h3, _, h⟩ |
    ⟨h1, h2, h3, h4, _, _, _, _, _, _, _, _, _, _, _, _, h⟩ <;>
  rcases loadDense_ok (e := e) hb'.dims hb'.nV hb'.nComp hf with ⟨k1, _, k⟩ | ⟨k1, k2, _, k⟩ | ⟨k1, k2, k3, _, k⟩ |
    ⟨k1, k2, k3, k4, _, _, _, _, _, _, _, _, _, _, _, _, k⟩
  all_goals first
    | exact ⟨_, _, _, h, k⟩
    | exact absurd h1 k1 | exact absurd k1 h1 | exact absurd h2 k2 | exact absurd k2 h2
    | exact absurd h3 (by rw [not_or]; exact ⟨k3, k4⟩) | exact absurd k3 (by rw [not_or]; exact ⟨h3, h4⟩)

/-- C35: if nothing is left over from earlier problems, then the run after loading a dense problem into a used object
is the same as with a new object: same faults, and same return code, iterate, multipliers, status, statistics and
printed text. -/
theorem C35_same (hb : Built o n) (hf : a.Fits n) (hp : a.lbL = none ↔ a.lbR = none) (hl : NoLeft o a)
    (hq : o.d.opts.qpSolver = 0) {o1 o2 : Obj α} (h1 : loadDense e o a = .ok (.successfulReturn, o1))
    (h2 : loadDense e (freshLike o n) a = .ok (.successfulReturn, o2)) (fuel : Nat) :
    RelM (Option.Rel SameEnd) (runSolver e fuel o1) (runSolver e fuel o2) := by
  have hb' := hb.fresh
  have hd := freshLike_d hb
  obtain ⟨r1, p1, s1⟩ := hb.load hf hp h1
  obtain ⟨r2, p2, s2⟩ := hb'.load hf hp h2
  have key : SameLoad (o.d.opts.nDyn ≠ 0) o1 o2 := by
    rcases loadDense_ok (e := e) hb.dims hb.nV hb.nComp hf with ⟨_, _, h⟩ | ⟨_, _, _, h⟩ | ⟨_, _, _, _, h⟩ |
      ⟨_, _, _, _, Q, g, L, R, hQ, hg, hL, hR, _, _, _, _, h⟩
    · rw [h] at h1; injection h1 with h1; injection h1 with h1 _; cases h1
    · rw [h] at h1; injection h1 with h1; injection h1 with h1 _; cases h1
    · rw [h] at h1; injection h1 with h1; injection h1 with h1 _; cases h1
    rcases loadDense_ok (e := e) hb'.dims hb'.nV hb'.nComp hf with ⟨_, _, h'⟩ | ⟨_, _, _, h'⟩ | ⟨_, _, _, _, h'⟩ |
      ⟨_, _, _, _, Q', g', L', R', hQ', hg', hL', hR', _, _, _, _, h'⟩
    · rw [h'] at h2; injection h2 with h2; injection h2 with h2 _; cases h2
    · rw [h'] at h2; injection h2 with h2; injection h2 with h2 _; cases h2
    · rw [h'] at h2; injection h2 with h2; injection h2 with h2 _; cases h2
    rw [hQ] at hQ'; rw [hg] at hg'; rw [hL] at hL'; rw [hR] at hR'
    injection hQ' with hQ'; injection hg' with hg'; injection hL' with hL'; injection hR' with hR'
    subst hQ' hg' hL' hR'
    rw [h] at h1
    rw [h'] at h2
    injection h1 with h1; injection h1 with _ h1
    injection h2 with h2; injection h2 with _ h2
    subst h1 h2
    constructor
    all_goals try unfold denseObj
    all_goals try dsimp only
    all_goals try rw [hd]
    all_goals try dsimp only
    all_goals try rfl
    · cases h : a.lb with
      | none => rw [hl.lb h]; rfl
      | some v => rfl
    · cases h : a.ub with
      | none => rw [hl.ub h]; rfl
      | some v => rfl
    · unfold bndMem
      split
      · rename_i h
        rw [(hl.low h (hp.mp h)).1]; rfl
      · rfl
    · unfold bndMem
      split
      · rename_i h
        rw [(hl.low (hp.mpr h) h).2.1]; rfl
      · rfl
    · intro k1 _
      have : a.lbL = none := by
        unfold bndMem at k1
        split at k1
        · assumption
        · rename_i h
          cases hh : a.lbL with
          | none => rfl
          | some v => rw [hh] at k1; cases k1
      obtain ⟨_, _, k3, k4⟩ := hl.low this (hp.mp this)
      rw [k3, k4]
      exact ⟨rfl, rfl⟩
    · intro hne
      have := freshLike_hist hb
      rw [this]
      rcases hl.hist with h | h
      · exact h
      · exact absurd h hne
  have ho : o2.d.opts = o.d.opts := by rw [p2, hd]; rfl
  refine (dense_rel r1 r2 key (by rw [ho]; exact hq) (by rw [ho]; exact id) fuel).mono fun a b hab => ?_
  cases hab
  · rename_i hab
    obtain ⟨hc, h⟩ := hab
    exact .some ⟨hc, h.xk, h.yk, h.algo, h.stats, h.out, h.calls, h.rnd⟩
  · exact .none

/-- C35: after a completed run of a problem without lower complementarity bounds on a new object, with the dynamic
penalty rule disabled, the object can be reloaded as if it were new. -/
theorem C35_after_run (opts : Options α) {nV nC nComp : Int} (hn : 1 ≤ nV ∧ 1 ≤ nComp ∧ 0 ≤ nC)
    (hd : n = ⟨nV.toNat, nC.toNat, nComp.toNat⟩) (hq : opts.qpSolver = 0) (h0 : opts.nDyn = 0) {b : DenseArgs α}
    (hb : b.Fits n) (hlL : b.lbL = none) (hlR : b.lbR = none) {o' : Obj α}
    (hload : loadDense e (Obj.new opts nV nC nComp) b = .ok (.successfulReturn, o')) {N : Int} (he : AnsBnd e N)
    (hsm : Small opts N) {fuel : Nat} {r : RV × Obj α} (hr : runSolver e fuel o' = .ok (some r))
    (ha : a.Fits n) (hp : a.lbL = none ↔ a.lbR = none) {o1 o2 : Obj α}
    (h1 : loadDense e r.2 a = .ok (.successfulReturn, o1))
    (h2 : loadDense e (freshLike r.2 n) a = .ok (.successfulReturn, o2)) (fuel' : Nat) :
    RelM (Option.Rel SameEnd) (runSolver e fuel' o1) (runSolver e fuel' o2) := by
  subst hd
  have hB := Built.new opts hn
  have hopt : (Obj.new opts nV nC nComp).d.opts = opts := by
    simp only [Obj.new]
    rw [if_neg (by omega), if_neg (by omega), if_neg (by omega)]
    rfl
  obtain ⟨hR, ho, hs⟩ := hB.load hb (by simp [hlL, hlR]) hload
  rw [hopt] at ho
  have hq' : o'.d.opts.qpSolver = 0 := by rw [ho]; exact hq
  have hlow : o'.d.lbL = none ∧ o'.d.lbR = none ∧ o'.d.gPhi = none ∧ o'.d.phiConst = zero := by
    rcases loadDense_ok (e := e) hB.dims hB.nV hB.nComp hb with ⟨_, _, h⟩ | ⟨_, _, _, h⟩ | ⟨_, _, _, _, h⟩ |
      ⟨_, _, _, _, Q, g, L, R, hQ, hg, hL, hR, _, _, _, _, h⟩
    · rw [h] at hload; injection hload with hload; injection hload with hload _; cases hload
    · rw [h] at hload; injection hload with hload; injection hload with hload _; cases hload
    · rw [h] at hload; injection hload with hload; injection hload with hload _; cases hload
    rw [h] at hload
    injection hload with hload; injection hload with _ hload
    subst hload
    have hnew : (Obj.new opts nV nC nComp).d = { (Obj.blank opts).d with dims := some ⟨nV.toNat, nC.toNat, nComp.toNat⟩ } := by
      simp only [Obj.new]
      rw [if_neg (by omega), if_neg (by omega), if_neg (by omega)]
    unfold denseObj
    dsimp only
    rw [hnew, hlL, hlR]
    exact ⟨rfl, rfl, rfl, rfl⟩
  obtain ⟨q, hq1, hall⟩ := runSolver_total hR he (by rw [ho]; exact hsm) (by omega) fuel
  rw [hr] at hq1
  injection hq1 with hq1
  obtain ⟨i, hi, h⟩ := hall r hq1.symm
  obtain ⟨c, gp, hphi, _⟩ := initPhi_ok hR.dims hR.L hR.R hR.gPhi hR.pair
  have lQ := hR.Q
  have lA := hR.A
  rw [MatOK, if_neg (by simp [hs])] at lQ lA
  obtain ⟨Q, hQ, _⟩ := lQ
  obtain ⟨A, hA, _⟩ := lA
  obtain ⟨g, hg, _⟩ := hR.g
  have hi' := initializeSolver_dense (e := e) hR hq' hs hQ hA hg hphi
  rw [hi] at hi'
  injection hi' with hi'
  rcases h with ⟨h, _⟩ | ⟨hok, _, _, _, h⟩
  · rw [hi'] at h; exact absurd rfl h
  obtain ⟨hR', hopt', hlt, hut⟩ := h hq'
  have hdat := run_data hr hi hok
  rw [hi'] at hdat
  have hsp : r.2.d.sparse = false := by rw [hdat]; exact hs
  rw [initPhi, if_pos ⟨hlow.1, hlow.2.1⟩] at hphi
  injection hphi with hphi
  have e1 := congrArg Data.phiConst hphi
  have e2 := congrArg Data.gPhi hphi
  dsimp only at e1 e2
  refine C35_same (hR'.built hsp hB.nComp) ha hp ⟨fun _ _ => ?_, fun _ => hlt, fun _ => hut, Or.inr ?_⟩ ?_ h1 h2 fuel'
  · rw [hdat]
    unfold initDense
    dsimp only
    rw [← e1, ← e2]
    exact hlow
  · rw [hopt', ho]; exact h0
  · rw [hopt', ho]; exact hq

/-- C35: bounds of an earlier problem are kept when the new problem has none. -/
theorem C35_kept (hn : o.d.dims = some n) (hV : n.nV ≠ 0) (hC : n.nComp ≠ 0) (hf : a.Fits n) {o1 : Obj α}
    (h1 : loadDense e o a = .ok (.successfulReturn, o1)) :
    (a.lbL = none → o1.d.lbL = o.d.lbL) ∧ (a.lbR = none → o1.d.lbR = o.d.lbR) ∧
    (a.ubL = none → o1.d.ubL = o.d.ubL) ∧ (a.ubR = none → o1.d.ubR = o.d.ubR) ∧
    (a.lb = none → o1.d.lbTmp = o.d.lbTmp) ∧ (a.ub = none → o1.d.ubTmp = o.d.ubTmp) ∧ o1.s.hist = o.s.hist := by
  rcases loadDense_ok (e := e) hn hV hC hf with ⟨_, _, h⟩ | ⟨_, _, _, h⟩ | ⟨_, _, _, _, h⟩ |
    ⟨_, _, _, _, Q, g, L, R, hQ, hg, hL, hR, _, _, _, _, h⟩
  · rw [h] at h1; injection h1 with h1; injection h1 with h1 _; cases h1
  · rw [h] at h1; injection h1 with h1; injection h1 with h1 _; cases h1
  · rw [h] at h1; injection h1 with h1; injection h1 with h1 _; cases h1
  rw [h] at h1
  injection h1 with h1; injection h1 with _ h1
  subst h1
  refine ⟨fun h => ?_, fun h => ?_, fun h => ?_, fun h => ?_, fun h => ?_, fun h => ?_, rfl⟩ <;> unfold denseObj <;> dsimp only
  · rw [bndMem, if_pos h]
  · rw [bndMem, if_pos h]
  · rw [bndMem, if_pos h]
  · rw [bndMem, if_pos h]
  · rw [h]; rfl
  · rw [h]; rfl

end anyArith

section exact
variable {K : Type} [Field K] [LinearOrder K] [IsStrictOrderedRing K] {n : Dims} {P : Prob K n} {e : Env (Ext K)}
  {o o' : Obj (Ext K)} {x0 : Fin n.nV → K} {r0 f : K} {a : DenseArgs (Ext K)}

/-- C35: when the object holds lower complementarity bounds `l`, `r` and the new problem `P` is loaded without any, the
run treats the problem with `P`'s matrices but with the penalty function of the bounds `l`, `r`.  All theorems about
exact arithmetic hold for this mixed problem. -/
theorem C35_mixed (hb : Built o n) {l r : Fin n.nComp → K} (hl : VecIs o.d.lbL n.nComp l) (hr : VecIs o.d.lbR n.nComp r)
    (ha : a.Are n P x0) (hL : a.lbL = none) (hR : a.lbR = none) (h : loadDense e o a = .ok (.successfulReturn, o'))
    (hr0 : o.d.opts.rho0 = fin r0) (hf : o.d.opts.factor = fin f) (f0 : f ≠ 0) (he : FinAns e) :
    Setup e o' n { P with lbL := l, lbR := r } x0 r0 f :=
  (Setup.dense_low hb (fun o' h1 h2 _ _ => Or.inr ⟨by rw [h1, bndMem, if_pos hL]; exact hl,
    by rw [h2, bndMem, if_pos hR]; exact hr⟩) ha h hr0 hf f0 he).1

end exact
end LCQ

namespace LCQ.Ex
open Scalar Ext
open scoped Matrix

/-- some problem with `1 ≤ x ⟂ y ≥ 1` -/
def args7 := argsOf [2, 0, 0, 2] [-4, -4] [1] [1] none none none

/-- `min (x-1)² + (y-1)²` subject to `0 ≤ x ⟂ y ≥ 0`, without lower complementarity bounds -/
def args8 : DenseArgs (Ext ℚ) := { argsOf [2, 0, 0, 2] [-2, -2] [] [] none none none with
  lbL := none
  lbR := none }

theorem args8_are : args8.Are dim prob4 0 := by
  refine ⟨⟨⟨_, rfl, by simp [emb]⟩, ⟨_, rfl, by simp [emb]⟩, ⟨_, rfl, by simp [emb]⟩, ?_, ?_, ?_, ?_, ?_, ?_, ?_, ?_, ?_, ?_,
    ?_, ?_⟩, ⟨_, rfl, by simp, rfl⟩, ⟨_, rfl, by simp, rfl⟩, Or.inl ⟨rfl, rfl⟩, ⟨_, rfl, by simp, rfl⟩,
    ⟨_, rfl, by simp, rfl⟩, Or.inl ⟨rfl, rfl, ?_, ?_⟩, Or.inl ⟨rfl, rfl⟩⟩
  · rintro v ⟨⟩; simp [emb]
  all_goals try (rintro v ⟨⟩)
  · funext i; fin_cases i; rfl
  · funext i; fin_cases i; rfl

theorem exact8 : ExactOn (solver ans6) dim (IsSub prob4 ![fin 0, fin 0] (fun _ => pinf) (fun _ => ninf) (fun _ => pinf)) :=
  exact6

/-- load one problem, then another, and run -/
def goR (e : Env (Ext ℚ)) (op : Options (Ext ℚ)) (a b : DenseArgs (Ext ℚ)) (fuel : Nat) : M (Option (RV × Obj (Ext ℚ))) := do
  let r ← loadDense e (Obj.new op 2 0 1) a
  let r ← loadDense e r.2 b
  runSolver e fuel r.2

/-- load the two problems -/
def goL : M (RV × Obj (Ext ℚ)) := do
  let r ← loadDense (solver ans6) (Obj.new opts 2 0 1) args7
  loadDense (solver ans6) r.2 args8

theorem look8 : look (goR (solver ans6) opts args7 args8 20) = some ⟨.successfulReturn, some 2, some 1, some (fin (1/50)),
    some (emb [1, 1]), some (emb [0, 0]), some (emb [0, 0, -1/50, -1/50])⟩ := by decide +kernel

/-- C35 is false when lower complementarity bounds are left over: after loading `1 ≤ x ⟂ y ≥ 1`, the problem
`min (x-1)² + (y-1)²` subject to `0 ≤ x ⟂ y ≥ 0` is loaded without lower bounds.  With exact QP solutions the run
reports success at `(1, 1)`, where the complementarity product is 1. -/
theorem C35_fails : ∃ o1 o2 o3, loadDense (solver ans6) (Obj.new opts 2 0 1) args7 = .ok (.successfulReturn, o1) ∧
    loadDense (solver ans6) o1 args8 = .ok (.successfulReturn, o2) ∧ args8.Are dim prob4 0 ∧
    Stored o2 dim args8.bnds ∧
    ExactOn (solver ans6) dim (IsSub prob4 ![fin 0, fin 0] (fun _ => pinf) (fun _ => ninf) (fun _ => pinf)) ∧
    runSolver (solver ans6) 20 o2 = .ok (some (.successfulReturn, o3)) ∧ o3.s.xk = some (emb [1, 1]) ∧
    prob4.phi ![1, 1] = 1 := by
  have ha : args7.Are dim (prob [2, 0, 0, 2] [-4, -4] [1] [1]) 0 := argsOf_are (by simp) (by simp) (by simp) (by simp)
    (by rintro v ⟨⟩) (by rintro v ⟨⟩) (Or.inl ⟨rfl, rfl⟩)
  obtain ⟨o1, hl1, hS, hs, hop, _⟩ := setup_of ha (solver_fin ans6) (r0 := 1 / 100) (f := 2)
    (by decide +kernel) (by decide +kernel) (by norm_num) (by rfl : (loadDense (solver ans6) (Obj.new opts 2 0 1) args7).map (·.1) = .ok .successfulReturn)
  have hB : Built (Obj.new opts 2 0 1) dim := Built.new opts (by decide)
  have hb1 := hS.ready.built hs (by decide)
  obtain ⟨k1, k2, k3, k4, k5, k6, _⟩ := C35_kept hB.dims (by decide) (by decide) ha.fits hl1
  have hl2 : (goL : M (RV × Obj (Ext ℚ))) = loadDense (solver ans6) o1 args8 := by
    simp only [goL, hl1, ok_bind]
  have hc : (goL : M (RV × Obj (Ext ℚ))).map (·.1) = .ok .successfulReturn := by rfl
  have h := look8
  simp only [goR, hl1, ok_bind] at h
  cases hl : loadDense (solver ans6) o1 args8 with
  | error x => rw [hl2, hl] at hc; cases hc
  | ok q =>
    rw [hl2, hl] at hc
    obtain ⟨c, o2⟩ := q
    have hc : c = .successfulReturn := by injection hc
    subst hc
    rw [hl, ok_bind] at h
    refine ⟨o1, o2, ?_⟩
    cases hr : runSolver (solver ans6) 20 o2 with
    | error x => rw [hr] at h; cases h
    | ok q =>
      rw [hr] at h
      cases q with
      | none => cases h
      | some p =>
        simp only [look, Option.some.injEq, Look.mk.injEq] at h
        refine ⟨p.2, hl1, hl, args8_are, Stored.dense hb1 (k5 rfl) (k6 rfl) args8_are.fits hl, exact8, by rw [← h.1], h.2.2.2.2.1, ?_⟩
        decide +kernel

/-- load, run, load another problem, run -/
def goH (e : Env (Ext ℚ)) (op : Options (Ext ℚ)) (a b : DenseArgs (Ext ℚ)) (fuel : Nat) : M (Option (RV × Obj (Ext ℚ))) := do
  let r ← loadDense e (Obj.new op 2 0 1) a
  match ← runSolver e fuel r.2 with
  | none => .ok none
  | some q => do
    let r ← loadDense e q.2 b
    runSolver e fuel r.2

/-- `args8` with an initial guess -/
def args9 : DenseArgs (Ext ℚ) := { args8 with x0 := some (emb [2, 2]) }

/-- options with the dynamic penalty rule -/
def optsD : Options (Ext ℚ) := { opts with
  nDyn := 1
  eta := fin (9/10)
  rho0 := fin 1
  maxIter := 8 }

/-- C35 is false when a record of the dynamic penalty rule is left over: the run of the reloaded object makes 9 penalty
updates, that of a new object 7. -/
theorem C35_record : code (goH (solver ans6) optsD args8 args9 30) = .ok (some (.maxIterationsReached, some 9)) ∧
    code (go (solver ans6) optsD args9 30) = .ok (some (.maxIterationsReached, some 7)) := by
  constructor <;> decide +kernel

/-- C35 is false when box bounds are left over: `args5` has the upper bounds 1, `args9` has none, but after loading both, the
upper bounds of the first problem are in effect. -/
theorem C35_boxes : ∃ o1 o2, loadDense (solver ans6) (Obj.new opts 2 0 1) args5 = .ok (.successfulReturn, o1) ∧
      loadDense (solver ans6) o1 args9 = .ok (.successfulReturn, o2) ∧ args9.ub = none ∧ o2.d.ubTmp = some (emb [1, 1]) := by
  refine ⟨_, _, rfl, rfl, rfl, ?_⟩
  decide +kernel

/-- options without the dynamic penalty rule -/
def opts0 : Options (Ext ℚ) := { opts with
  nDyn := 0
  maxIter := 6 }

-- reloading a used object as in `C35_after_run`
example : code (goH (solver ans6) opts0 args9 args5 25) = .ok (some (.successfulReturn, some 0)) ∧
    code (go (solver ans6) opts0 args5 25) = .ok (some (.successfulReturn, some 0)) := by
  constructor <;> decide +kernel

example : opts0.qpSolver = 0 ∧ opts0.nDyn = 0 ∧ AnsBnd (solver ans6) 3 ∧ Small opts0 3 := by
  refine ⟨rfl, by decide, ?_, ⟨by decide, by decide, by decide⟩⟩
  intro k q
  simp only [solver, envOf]
  split <;> exact ⟨(by decide : (-3 : Int) ≤ 3), (by decide : (3 : Int) ≤ 3)⟩

end LCQ.Ex
