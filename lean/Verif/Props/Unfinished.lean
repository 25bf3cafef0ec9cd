import Verif.Lemmas.Unfinished
import Verif.Props.Symmetry

/-!
# C91: what a run leaves when it gives up

A run that enters its main loop and does not succeed ends in its last pass by reaching the iteration limit, by exceeding the maximal
penalty parameter, or with a failed subproblem.  In any arithmetic one of the two tests, as computed, fails at the end of such a run.
In exact arithmetic: it never gives up at a point that passes both tests of the last
pass; an exceeded penalty parameter means that the point is not complementary; without the rule of Leyffer it moreover means that
the point is stationary for the penalised problem.  The multipliers left are those of the penalised problem: they have not been turned
into multipliers of the LCQP, in contrast to those of a successful run.
-/

set_option linter.unusedSectionVars false

namespace LCQ
open Scalar Ext
open scoped Matrix

section
variable {α : Type} [Scalar α] {e : Env α} {o : Obj α}

/-- the two limits are tested only in the main loop -/
theorem limit_enters {fuel : Nat} {rv : RV} {o' : Obj α} (h : runSolver e fuel o = .ok (some (rv, o')))
    (hr : rv = .maxIterationsReached ∨ rv = .maxPenaltyReached) : ∃ d s0, Enters e o d s0 := by
  obtain ⟨i, hi, ⟨hne, hr'⟩ | ⟨hs, _, hf | ⟨s, hf, _⟩⟩⟩ := runSolver_inv h
  · obtain ⟨_, hcode⟩ := initializeSolver_fail hi hne
    have : rv = i.1 := congrArg (·.1) hr'
    rw [← this] at hcode
    rcases hr with rfl | rfl <;> simp at hcode
  · obtain ⟨_, q, hq, ⟨hne, h'⟩ | ⟨_, _, _, _, _, _, ⟨⟩⟩⟩ := firstStep_inv hf
    injection h' with h'
    have : rv = q.1 := congrArg (·.1) h'
    rw [this] at hr
    exact absurd hr (solveQP_code hq)
  · exact ⟨_, s, i, hi, hs, rfl, hf⟩

/-- the residual stored by the last pass does not pass the test of stationarity, as the program computes it -/
def NotStationary (o : Obj α) : Prop :=
  ∃ n st m, o.d.dims = some n ∧ o.s.statk = some st ∧ maxAbs st n.nV = .ok m ∧ (m <. o.d.opts.statTol) = false

/-- the value of the penalty function at the point left, as the program computes it, is not below the complementarity tolerance -/
def NotComplementary (o : Obj α) : Prop :=
  ∃ v, getPhi o.d o.s = .ok v ∧ (v <. o.d.opts.complTol) = false

/-- C91, in any arithmetic, in particular with rounding and with values that are not numbers: a run that enters its main loop and does
not succeed leaves a stored residual or a point that fails the respective test as computed. -/
theorem C91_any {fuel : Nat} {rv : RV} {o' : Obj α} (h : runSolver e fuel o = .ok (some (rv, o')))
    (hne : rv ≠ .successfulReturn) {d : Data α} {s0 : St α} (h0 : Enters e o d s0) :
    NotStationary o' ∨ NotComplementary o' := by
  obtain ⟨rfl, s, hs, hp⟩ := run_end h h0
  obtain ⟨t, k, hl, _⟩ := hs.live
  rcases (pass_tests hp hne hl).1 with hc | hc
  · simp only [stationarityCheck, bind_eq_ok, initd_eq_ok, deref_eq_ok] at hc
    obtain ⟨n, h1, st, h2, m, h3, h4⟩ := hc
    injection h4 with h4
    exact Or.inl ⟨n, st, m, h1, h2, h3, h4⟩
  · simp only [complementarityCheck, bind_eq_ok] at hc
    obtain ⟨v, h1, h2⟩ := hc
    injection h2 with h2
    exact Or.inr ⟨v, h1, h2⟩

/-- C91, in any arithmetic: the code for an exceeded penalty parameter means that the point left fails the test of complementarity as
computed, provided the initial penalty parameter does not exceed the maximal one. -/
theorem C91_any_penalty {fuel : Nat} {o' : Obj α} (h : runSolver e fuel o = .ok (some (.maxPenaltyReached, o')))
    (h0 : (o'.d.opts.maxRho <. o'.d.opts.rho0) = false) : NotComplementary o' := by
  obtain ⟨d, s0, hE⟩ := limit_enters h (Or.inr rfl)
  obtain ⟨rfl, s, hs, hp⟩ := run_end h hE
  obtain ⟨t, k, hl, hk⟩ := hs.live
  have hk' : (o'.d.opts.maxRho <. penalty o'.d.opts k) = false := by
    rcases hk with ⟨_, rfl⟩ | hk
    · exact h0
    · exact hk
  have hc := (pass_tests hp (by simp) hl).2 rfl hk'
  simp only [complementarityCheck, bind_eq_ok] at hc
  obtain ⟨v, h1, h2⟩ := hc
  injection h2 with h2
  exact ⟨v, h1, h2⟩

end

/-- what the stationarity test looks at after `k` penalty updates: the gradient of the Lagrangian of the penalised problem, without
the constant part of the penalty gradient as long as there has been no update -/
def Prob.tested {K : Type} [Field K] {n : Dims} (P : Prob K n) {off : Nat} (r : K) (k : Nat) (x : Fin n.nV → K)
    (y : Fin (off + n.nA) → K) : Fin n.nV → K :=
  P.penResidual r x y - if k = 0 then r • P.gPhi else 0

variable {K : Type} [Field K] [LinearOrder K] [IsStrictOrderedRing K]
variable {e : Env (Ext K)} {o : Obj (Ext K)} {d : Data (Ext K)} {n : Dims} {P : Prob K n} {x0 : Fin n.nV → K} {r0 f : K}

/-- The last pass of a run without success: `k` is the number of penalty updates before it, `j` the number of those in it, `x` the
final point and `y` the multipliers used in the test of stationarity. -/
structure GaveUp (P : Prob K n) (op : Options (Ext K)) (r0 f ts tc : K) (rv : RV) (s : St (Ext K)) {off : Nat} (k j : Nat)
    (x : Fin n.nV → K) (y : Fin (off + n.nA) → K) : Prop where
  /-- the point left is the one that has been tested -/
  xk : s.xk = some (ev x)
  /-- final penalty parameter -/
  rho : s.rho = some (fin (r0 * f ^ (k + j)))
  /-- reported number of penalty updates -/
  outer : s.stats.iterOuter = k + j
  /-- at most one update by either rule -/
  two : j ≤ 2
  /-- and only one rule if that of Leyffer is switched off -/
  one : toSizeT op.nDyn = 0 → j ≤ 1
  /-- without an update in the last pass the point has failed the test of stationarity -/
  zero : j = 0 → ∃ i, ts ≤ |P.tested (r0 * f ^ k) k x y i|
  /-- an update in the last pass is made only if the point is not complementary -/
  compl : 0 < j → tc ≤ P.phi x
  /-- an update by the outer loop is made only if the point is stationary for the penalised problem -/
  stat : j = 2 ∨ (j = 1 ∧ toSizeT op.nDyn = 0) → ∀ i, |P.tested (r0 * f ^ k) k x y i| < ts
  /-- multipliers left at a limit: those that have been tested -/
  duals : rv = .maxIterationsReached ∨ rv = .maxPenaltyReached → s.yk = some (ev y) ∧ s.ykA = some (ev (yLin y))
  /-- the penalty limit -/
  limRho : rv = .maxPenaltyReached → (op.maxRho <. fin (r0 * f ^ (k + j))) = true
  /-- before the last pass the penalty parameter was still admissible, unless it was the initial one -/
  before : k = 0 ∨ (op.maxRho <. fin (r0 * f ^ k)) = false
  /-- the iteration limit -/
  limIter : rv = .maxIterationsReached → op.maxIter < s.stats.iterTotal

/-- C91: a run that enters its main loop and returns another code than the one of success. -/
theorem C91_unfinished (hS : Setup e o n P x0 r0 f) (hQ : o.d.sparse = true → P.Qᵀ = P.Q) {ts tc : K} (ht0 : 0 < ts)
    (hts : o.d.opts.statTol = fin ts) (htc : o.d.opts.complTol = fin tc) {fuel : Nat} {rv : RV} {o' : Obj (Ext K)}
    (h : runSolver e fuel o = .ok (some (rv, o'))) (hne : rv ≠ .successfulReturn) {s0 : St (Ext K)} (h0 : Enters e o d s0) :
    ∃ (off k j : Nat) (x : Fin n.nV → K) (y : Fin (off + n.nA) → K), GaveUp P o.d.opts r0 f ts tc rv o'.s k j x y := by
  obtain ⟨rfl, s, hs, hp⟩ := run_end h h0
  obtain ⟨xs, ps, a', e1, e2, e3, hx⟩ := pass_end hS hs hp
  obtain ⟨off, _, hd, ho, hsp, r, b, x, p, a, y, hX, hb⟩ := hS.head hs
  have i1 : xs = x := ev_inj (Option.some.inj (e1.symm.trans hX.xk))
  have i2 : ps = p := ev_inj (Option.some.inj (e2.symm.trans hX.pk))
  have i3 : a' = a := by have := e3.symm.trans hX.alpha; injection this with this; injection this
  subst i1 i2 i3
  obtain ⟨s1, h1, hr⟩ := hs
  obtain ⟨t, ht⟩ := Reach.passes hr
  obtain ⟨k, hl, hk, _⟩ := ht.live h1
  have hpen : ∀ m, penalty o'.d.opts m = fin (r0 * f ^ m) := by
    intro m
    induction m with
    | zero => rw [pow_zero, mul_one, penalty, ho, hS.rho0]
    | succ m ih => rw [penalty, ih, ho, hS.factor, fin_mul, pow_succ, mul_assoc]
  have er : r = r0 * f ^ k := by
    have := hX.rho.symm.trans hl.rho
    rw [hpen] at this
    injection this with this
    injection this
  have eb : (if b then (0 : Fin n.nV → K) else r • P.gPhi) = if k = 0 then r • P.gPhi else 0 := by
    obtain ⟨m, hm, _, hm2⟩ := hb
    have : m = (k : Int) := by have := hm.symm.trans hl.outer; injection this
    subst this
    rcases Nat.eq_zero_or_pos k with rfl | h
    · cases b with
      | false => rfl
      | true => exact absurd (hm2.mp rfl) (by simp)
    · rw [if_pos (hm2.mpr (by omega)), if_neg (by omega)]
  have ev : P.stat o'.d.sparse r b (xs + a' • ps) y = P.tested (r0 * f ^ k) k (xs + a' • ps) y := by
    rw [stat_eq r b _ y (fun h => hQ (hsp ▸ h)), eb, er]
    rfl
  obtain ⟨j, hj, l', g1, g2, g3, g4, g5, g6, g7⟩ := pass_unfinished hd (by rw [ho]; exact hS.factor) hS.f0 hX hb hl ht0
    (by rw [ho]; exact hts) (by rw [ho]; exact htc) hp hne
  rw [ev, ho] at *
  refine ⟨off, k, j, xs + a' • ps, y, hx, ?_, l'.iterOuter, hj, g4, g1, g2, g3, fun h => ⟨(g7 h).1, (g7 h).2.1⟩, ?_, ?_, ?_⟩
  · rw [← hpen]; exact l'.rho
  · rw [← hpen]; exact g5
  · rcases hk with hk | hk
    · exact Or.inl hk.2
    · rw [← hpen]; exact Or.inr hk
  · intro h
    rw [l'.iterTotal]
    exact g6 h

/-- C91: a run never gives up at a point that passes both tests: the point left by an unsuccessful run that enters the main loop
violates the complementarity tolerance, or violates the stationarity tolerance with the multipliers and the penalty parameter of the
last pass. -/
theorem C91_never (hS : Setup e o n P x0 r0 f) (hQ : o.d.sparse = true → P.Qᵀ = P.Q) {ts tc : K} (ht0 : 0 < ts)
    (hts : o.d.opts.statTol = fin ts) (htc : o.d.opts.complTol = fin tc) {fuel : Nat} {rv : RV} {o' : Obj (Ext K)}
    (h : runSolver e fuel o = .ok (some (rv, o'))) (hne : rv ≠ .successfulReturn) {s0 : St (Ext K)} (h0 : Enters e o d s0) :
    ∃ (off k : Nat) (x : Fin n.nV → K) (y : Fin (off + n.nA) → K), o'.s.xk = some (ev x) ∧
      (rv = .maxIterationsReached ∨ rv = .maxPenaltyReached → o'.s.yk = some (ev y)) ∧
      ¬ ((∀ i, |P.tested (r0 * f ^ k) k x y i| < ts) ∧ P.phi x < tc) := by
  obtain ⟨off, k, j, x, y, g⟩ := C91_unfinished hS hQ ht0 hts htc h hne h0
  refine ⟨off, k, x, y, g.xk, fun h => (g.duals h).1, ?_⟩
  rintro ⟨h1, h2⟩
  rcases Nat.eq_zero_or_pos j with hj | hj
  · obtain ⟨i, hi⟩ := g.zero hj
    exact absurd (h1 i) (not_lt.mpr hi)
  · exact absurd h2 (not_lt.mpr (g.compl hj))

/-- C91: the code for an exceeded penalty parameter means that the point left is not complementary (if the initial penalty parameter
is admissible).  If the rule of Leyffer is switched off and there was a penalty update before the last one, the point left is moreover
stationary for the penalised problem with the last admissible penalty parameter `r`, the multipliers left belong to that problem, and
the final penalty parameter is `r * f`.  As multipliers of the LCQP they are wrong by `r` times the gradient of the penalty. -/
theorem C91_penalty (hS : Setup e o n P x0 r0 f) (hQ : o.d.sparse = true → P.Qᵀ = P.Q) {ts tc m : K} (ht0 : 0 < ts)
    (hts : o.d.opts.statTol = fin ts) (htc : o.d.opts.complTol = fin tc) (hm : o.d.opts.maxRho = fin m) (hr0 : r0 ≤ m)
    {fuel : Nat} {o' : Obj (Ext K)} (h : runSolver e fuel o = .ok (some (.maxPenaltyReached, o'))) :
    ∃ (off k j : Nat) (x : Fin n.nV → K) (y : Fin (off + n.nA) → K),
      o'.s.xk = some (ev x) ∧ o'.s.yk = some (ev y) ∧ o'.s.ykA = some (ev (yLin y)) ∧ o'.s.stats.iterOuter = k + j ∧
      o'.s.rho = some (fin (r0 * f ^ (k + j))) ∧ 1 ≤ j ∧ j ≤ 2 ∧
      tc ≤ P.phi x ∧ r0 * f ^ k ≤ m ∧ m < r0 * f ^ (k + j) ∧
      (toSizeT o.d.opts.nDyn = 0 → j = 1 ∧ (0 < k →
        (∀ i, |P.penResidual (r0 * f ^ k) x y i| < ts) ∧
        ∀ i, |P.residual x y i + (r0 * f ^ k) * P.gradPhi x i| < ts)) := by
  obtain ⟨d, s0, h0⟩ := limit_enters h (Or.inr rfl)
  obtain ⟨off, k, j, x, y, g⟩ := C91_unfinished hS hQ ht0 hts htc h (by simp) h0
  have hgt : m < r0 * f ^ (k + j) := by
    have := g.limRho rfl
    rw [hm, fin_lt] at this
    simpa using this
  have hle : r0 * f ^ k ≤ m := by
    rcases g.before with rfl | hb
    · simpa using hr0
    · rw [hm, fin_lt] at hb
      simpa using hb
  have hj : 1 ≤ j := by
    rcases Nat.eq_zero_or_pos j with rfl | hj
    · exact absurd (lt_of_lt_of_le hgt hle) (lt_irrefl _)
    · exact hj
  refine ⟨off, k, j, x, y, g.xk, (g.duals (Or.inr rfl)).1, (g.duals (Or.inr rfl)).2, g.outer, g.rho, hj, g.two, g.compl hj, hle, hgt, ?_⟩
  intro hn
  have hj1 : j = 1 := le_antisymm (g.one hn) hj
  refine ⟨hj1, fun hk => ?_⟩
  have hst := g.stat (Or.inr ⟨hj1, hn⟩)
  have e1 : P.tested (r0 * f ^ k) k x y = P.penResidual (r0 * f ^ k) x y := by
    rw [Prob.tested, if_neg (by omega), sub_zero]
  rw [e1] at hst
  refine ⟨hst, fun i => ?_⟩
  have e2 : P.residual x y i + (r0 * f ^ k) * P.gradPhi x i = P.penResidual (r0 * f ^ k) x y i := by
    simp only [Prob.residual, Prob.penResidual, Pi.sub_apply, Pi.add_apply, Pi.smul_apply, smul_eq_mul]
    ring
  rw [e2]
  exact hst i

/-- C91: the code for the iteration limit: more iterations than allowed have been counted, and the point left fails the test of
stationarity in the last pass or is not complementary. -/
theorem C91_iterations (hS : Setup e o n P x0 r0 f) (hQ : o.d.sparse = true → P.Qᵀ = P.Q) {ts tc : K} (ht0 : 0 < ts)
    (hts : o.d.opts.statTol = fin ts) (htc : o.d.opts.complTol = fin tc)
    {fuel : Nat} {o' : Obj (Ext K)} (h : runSolver e fuel o = .ok (some (.maxIterationsReached, o'))) :
    o.d.opts.maxIter < o'.s.stats.iterTotal ∧
    ∃ (off k : Nat) (x : Fin n.nV → K) (y : Fin (off + n.nA) → K), o'.s.xk = some (ev x) ∧ o'.s.yk = some (ev y) ∧
      ((∃ i, ts ≤ |P.tested (r0 * f ^ k) k x y i|) ∨ tc ≤ P.phi x) := by
  obtain ⟨d, s0, h0⟩ := limit_enters h (Or.inl rfl)
  obtain ⟨off, k, j, x, y, g⟩ := C91_unfinished hS hQ ht0 hts htc h (by simp) h0
  refine ⟨g.limIter rfl, off, k, x, y, g.xk, (g.duals (Or.inl rfl)).1, ?_⟩
  rcases Nat.eq_zero_or_pos j with hj | hj
  · exact Or.inl (g.zero hj)
  · exact Or.inr (g.compl hj)

/-! ## a run of this kind -/

namespace Ex

/-- options of `look6S` without the rule of Leyffer and with the given iteration limit -/
def opts6U (m : Int) : Options (Ext ℚ) := { opts6S with
  nDyn := 0
  maxIter := m }

/-- a run with these options -/
def go6U (m : Int) : Option Look :=
  look (do let r ← loadDense solver6 (Obj.new (opts6U m) 2 1 1) args6; runSolver solver6 30 r.2)

theorem look6U : go6U 100 = some ⟨.maxPenaltyReached, some 2, some 3, some (fin 8), some (emb [1 / 2, 1 / 2]),
      some (emb [5 / 2, 0, 0]), some (emb [0, 0, 5 / 2, 0, 0])⟩ ∧
    go6U 1 = some ⟨.maxIterationsReached, some 2, some 1, some (fin 2), some (emb [1 / 2, 1 / 2]),
      some (emb [1, 0, 0]), some (emb [0, 0, 1, 0, 0])⟩ := by
  decide +kernel

end Ex

/-- C91: the assumptions of `C91_penalty` hold for a run of the symmetric example: it stops at `(1/2, 1/2)` with the penalty parameter
8, and leaves the multiplier `5/2` of its linear constraint, which belongs to the penalty parameter 4; with it the stationarity
condition of the LCQP is violated by 2 in both components. -/
theorem C91_witness : ∃ o o' : Obj (Ext ℚ), Setup Ex.solver6 o Ex.dim6 Ex.prob6 0 1 2 ∧ o.d.sparse = false ∧
    o.d.opts.statTol = fin (2221 / 10000000000000) ∧ o.d.opts.complTol = fin (1 / 1000) ∧ o.d.opts.maxRho = fin 4 ∧
    toSizeT o.d.opts.nDyn = 0 ∧
    runSolver Ex.solver6 30 o = .ok (some (.maxPenaltyReached, o')) ∧ o'.s.rho = some (fin 8) ∧
    o'.s.xk = some (ev (![1 / 2, 1 / 2] : Fin 2 → ℚ)) ∧
    ∃ y : Fin (2 + Ex.dim6.nA) → ℚ, o'.s.yk = some (ev y) ∧ Ex.prob6.residual ![1 / 2, 1 / 2] y = ![-2, -2] := by
  have hk := Ex.look6U.1
  have hl : (loadDense Ex.solver6 (Obj.new (Ex.opts6U 100) 2 1 1) Ex.args6).map (·.1) = .ok .successfulReturn := by rfl
  cases h : loadDense Ex.solver6 (Obj.new (Ex.opts6U 100) 2 1 1) Ex.args6 with
  | error x => rw [h] at hl; cases hl
  | ok q =>
    rw [h] at hl
    obtain ⟨c, o⟩ := q
    have hl : c = .successfulReturn := by injection hl
    subst hl
    simp only [Ex.go6U, h, ok_bind] at hk
    have hb : Built (Obj.new (Ex.opts6U 100) 2 1 1) Ex.dim6 := Built.new _ (by decide)
    obtain ⟨hS, hsp⟩ := Setup.dense hb ⟨rfl, rfl, rfl, zero_fin⟩ Ex.args6_are h (r0 := 1) (f := 2) (by decide +kernel)
      (by decide +kernel) (by norm_num) Ex.solver6_fin
    have ho : o.d.opts = Ex.opts6U 100 := (hb.load Ex.args6_are.fits (argLow_pair Ex.args6_are.low) h).2.1
    cases hr : runSolver Ex.solver6 30 o with
    | error x => rw [hr] at hk; cases hk
    | ok q =>
      rw [hr] at hk
      cases q with
      | none => cases hk
      | some p =>
        obtain ⟨rv, o'⟩ := p
        simp only [Ex.look, Option.some.injEq, Ex.Look.mk.injEq] at hk
        obtain ⟨rfl, _, _, h1, h2, _, h3⟩ := hk
        refine ⟨o, o', hS, hsp, by rw [ho]; decide +kernel, by rw [ho]; decide +kernel, by rw [ho]; decide +kernel,
          by rw [ho]; decide +kernel, hr, h1, ?_, (![0, 0, 5 / 2, 0, 0] : Fin 5 → ℚ), ?_, ?_⟩
        · rw [h2]; decide +kernel
        · rw [h3]; decide +kernel
        · decide +kernel

/-- the hypotheses of `C91_penalty` and its part about runs without the rule of Leyffer hold together -/
example : ∃ o o' : Obj (Ext ℚ), runSolver Ex.solver6 30 o = .ok (some (.maxPenaltyReached, o')) ∧
    ∃ x, o'.s.xk = some (ev x) ∧ 1 / 1000 ≤ Ex.prob6.phi x := by
  obtain ⟨o, o', hS, hsp, hts, htc, hm, _, hr, _⟩ := C91_witness
  obtain ⟨off, k, j, x, y, h1, _, _, _, _, _, _, h2, _⟩ := C91_penalty hS (by rw [hsp]; simp) (by norm_num) hts htc hm (by norm_num) hr
  exact ⟨o, o', hr, x, h1, h2⟩

/-- the hypotheses of `C91_any_penalty` and of `C91_any` hold together -/
example : ∃ o o' : Obj (Ext ℚ), runSolver Ex.solver6 30 o = .ok (some (.maxPenaltyReached, o')) ∧ NotComplementary o' ∧
    ∃ d s0, Enters Ex.solver6 o d s0 := by
  obtain ⟨o, o', hS, hsp, hts, htc, hm, _, hr, _⟩ := C91_witness
  obtain ⟨d, s0, h0⟩ := limit_enters hr (Or.inr rfl)
  obtain ⟨rfl, s, hs, _⟩ := run_end hr h0
  obtain ⟨_, _, _, ho, _⟩ := hS.head hs
  refine ⟨o, o', hr, C91_any_penalty hr ?_, _, s0, h0⟩
  rw [ho, hm, hS.rho0, fin_lt]
  norm_num

/-- a run that reaches the iteration limit -/
example : (Ex.go6U 1).map (·.rv) = some .maxIterationsReached := by rw [Ex.look6U.2]; rfl

end LCQ
