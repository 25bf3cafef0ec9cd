import Verif.Lemmas.Rows
import Verif.Lemmas.EnoughRun
import Verif.Props.CertifyEx
import Mathlib.Data.List.Chain

/-!
# Meaning of the recorded and printed values (C56)
-/

set_option linter.unusedSectionVars false

namespace LCQ
open Scalar Ext
open scoped Matrix

section
variable {α : Type} [Scalar α]

theorem solve_iter {e : Env α} {d : Data α} {s : St α} {init : Bool} {q : RV × St α} (h : solveQP e d s init = .ok q)
    (hq : q.1 = .successfulReturn) : q.2.calls = s.calls + 1 ∧ ∃ req, q.2.qpIter = some (e.qp s.calls req).iter := by
  obtain ⟨q', hq', hr', it, ex, st, hit, _, _, w, c, m, x, y, a, b, p, _, hm, _, _, hq2⟩ := solveQP_inv h
  rw [hr'] at hq
  obtain ⟨sub, _, ⟨hx, _⟩ | ⟨req, ans, hans, _, _, hx | hx | hx | ⟨_, w', hx⟩⟩⟩ := subSolve_ret hq'
  · rw [hq] at hx; cases hx
  · rw [hq] at hx; cases hx.1
  · rw [hq] at hx; cases hx.1
  · rw [hq] at hx; cases hx.1
  · rw [hq2]
    refine ⟨by dsimp only; rw [hm, hx], req, ?_⟩
    dsimp only
    rw [← hit, hx, hans]

theorem first_iter {e : Env α} {o : Obj α} {d : Data α} {s0 : St α} (h : Enters e o d s0) :
    s0.calls = o.s.calls + 1 ∧ s0.inner = some 0 ∧ ∃ req, s0.qpIter = some (e.qp o.s.calls req).iter := by
  obtain ⟨i, hi, hok, rfl, hf⟩ := h
  obtain ⟨_, h1, _⟩ := Live.start hi hok
  obtain ⟨nd, bo, lo, up, sub, y, w, gt, pc, gp, hin⟩ := initializeSolver_ok hi hok
  have hin0 : i.2.s.inner = some 0 := by rw [hin]
  obtain ⟨gk, q, hq, ⟨hne, hr⟩ | ⟨hqok, a', b', c', rho, _, hr⟩⟩ := firstStep_inv hf
  · cases hr
  · injection hr with hr
    obtain ⟨g1, req, g2⟩ := solve_iter hq hqok
    obtain ⟨_, _, _, _, _, _, _, _, _, w, c, m, x, y, a, b, p, _, _, _, hq2⟩ := solveQP_inv hq
    rw [hr]
    refine ⟨?_, ?_, req, ?_⟩
    · dsimp only; rw [g1]; dsimp only; rw [h1]
    · dsimp only; rw [hq2.2]; exact hin0
    · dsimp only; rw [g2]; dsimp only; rw [h1]

theorem pass_iter {e : Env α} {d : Data α} {s s' : St α} (h : pass e d s = .ok (.inl s')) :
    s'.calls = s.calls + 1 ∧ ∃ req, s'.qpIter = some (e.qp s.calls req).iter := by
  obtain ⟨s1, s2, s3, h1, h2, h3, hcase⟩ := pass_inv h
  have c1 : s1.calls = s.calls := by
    obtain ⟨_, _, _, _, _, _, _, _, _, _, _, _, _, hp, _, _, rfl⟩ := advance_inv h1
    subst hp; rfl
  have cb : ∀ {u v : St α}, bump d u = .ok v → v.calls = u.calls := by
    intro u v hb
    obtain ⟨_, _, _, _, _, _, _, _, rfl⟩ := bump_inv hb
    rfl
  have c2 : s2.calls = s.calls := by
    obtain ⟨r, hh, _, hr2, ⟨_, h'⟩ | ⟨_, h'⟩⟩ := dynamicPenalty_inv h2
    · subst h'; rw [hr2]; exact c1
    · rw [cb h', hr2]; exact c1
  have c3 : s3.calls = s.calls := by
    obtain ⟨gk, rfl⟩ := updateLinearization_inv h3
    exact c2
  rcases hcase with ⟨_, _, q, _, ⟨⟩⟩ | ⟨s4, t', rho, h4, _, _, ⟨_, ⟨⟩⟩ | ⟨_, _, ⟨⟩⟩ | ⟨_, _, hn⟩⟩
  have c4 : s4.calls = s.calls := by
    rcases h4 with ⟨_, rfl⟩ | ⟨_, _, h4⟩
    · exact c3
    · rw [cb h4, c3]
  obtain ⟨gk, q, hq, ⟨_, ⟨⟩⟩ | ⟨hok, x', m', lt, a', hr⟩⟩ := nextStep_inv hn
  injection hr with hr
  subst hr
  obtain ⟨g1, req, g2⟩ := solve_iter hq hok
  exact ⟨by rw [← c4]; exact g1, req, by rw [← c4]; exact g2⟩

/-- the records up to a head -/
structure TrailInv (e : Env α) (o : Obj α) (s : St α) (R : List (Rec α)) (k : Nat) (i : Int) : Prop where
  live : Live o.d.opts s R.length k
  rho : (R.length = 0 ∧ k = 0) ∨ (o.d.opts.maxRho <. penalty o.d.opts k) = false
  inner : s.inner = some i
  calls : s.calls = o.s.calls + R.length + 1
  iter : ∃ req, s.qpIter = some (e.qp (o.s.calls + R.length) req).iter
  chain : R.IsChain Rec.Next
  head : ∀ r ∈ R.head?, r.outer = 0 ∧ r.inner = 0
  rhos : ∀ r ∈ R, r.rho = penalty o.d.opts r.outer.toNat
  subs : ∀ j (h : j < R.length), ∃ req, R[j].sub = (e.qp (o.s.calls + j) req).iter
  last : ∀ r ∈ R.getLast?, ((k : Int) = r.outer ∧ i = r.inner + 1) ∨ (r.outer < k ∧ i = 0)
  nil : R = [] → k = 0 ∧ i = 0

/-- adding the record made at a head -/
theorem TrailInv.snoc {e : Env α} {o : Obj α} {d : Data α} {s s1 : St α} {R : List (Rec α)} {k : Nat} {i : Int} (h : TrailInv e o s R k i) {r : Rec α}
    (hr : RecOf d s s1 r) : r.outer = k ∧ r.inner = i ∧ (R ++ [r]).IsChain Rec.Next ∧ (∀ r' ∈ (R ++ [r]).head?, r'.outer = 0 ∧ r'.inner = 0) ∧
      (∀ r' ∈ R ++ [r], r'.rho = penalty o.d.opts r'.outer.toNat) ∧
      ∀ j (h : j < (R ++ [r]).length), ∃ req, (R ++ [r])[j].sub = (e.qp (o.s.calls + j) req).iter := by
  have e1 : r.outer = k := by
    have := hr.outer.symm.trans h.live.outer
    injection this
  have e2 : r.inner = i := by
    have := hr.inner.symm.trans h.inner
    injection this
  refine ⟨e1, e2, ?_, ?_, ?_, ?_⟩
  · rw [List.isChain_append]
    refine ⟨h.chain, .singleton _, ?_⟩
    intro a ha b hb
    simp only [List.head?_cons, Option.mem_def, Option.some.injEq] at hb
    subst hb
    rcases h.last a ha with ⟨g1, g2⟩ | ⟨g1, g2⟩
    · exact Or.inl ⟨by omega, by omega⟩
    · exact Or.inr ⟨by omega, by omega⟩
  · intro r' hr'
    cases R with
    | nil =>
      simp only [List.nil_append, List.head?_cons, Option.mem_def, Option.some.injEq] at hr'
      subst hr'
      obtain ⟨g1, g2⟩ := h.nil rfl
      exact ⟨by omega, by omega⟩
    | cons a R =>
      simp only [List.cons_append, List.head?_cons, Option.mem_def, Option.some.injEq] at hr'
      subst hr'
      exact h.head _ rfl
  · intro r' hr'
    rw [List.mem_append, List.mem_singleton] at hr'
    rcases hr' with hr' | rfl
    · exact h.rhos _ hr'
    · have := hr.rho.symm.trans h.live.rho
      injection this with this
      rw [this, e1]
      rfl
  · intro j hj
    rw [List.length_append, List.length_singleton] at hj
    by_cases hlt : j < R.length
    · rw [List.getElem_append_left hlt]
      exact h.subs j hlt
    · have : j = R.length := by omega
      subst this
      simp only [List.getElem_concat_length]
      obtain ⟨req, hreq⟩ := h.iter
      refine ⟨req, ?_⟩
      have := hr.sub.symm.trans hreq
      injection this

theorem Trail.heads {e : Env α} {o : Obj α} {d : Data α} {s0 s : St α} {R : List (Rec α)} (h0 : Enters e o d s0)
    (h : Trail e d s0 R s) : ∃ k i, TrailInv e o s R k i := by
  have hlive : Live o.d.opts s0 0 0 ∧ d.opts = o.d.opts := by
    obtain ⟨i, hi, hok, rfl, hf⟩ := h0
    refine ⟨?_, (Live.start hi hok).1⟩
    rcases Live.first hi hok hf with ⟨s', h, hl, _⟩ | ⟨q, hq, _⟩
    · injection h with h
      subst h
      exact hl
    · cases hq
  induction h with
  | start =>
    obtain ⟨g1, g2, g3⟩ := first_iter h0
    exact ⟨0, 0, hlive.1, Or.inl ⟨rfl, rfl⟩, g2, g1, g3, .nil, by simp, by simp, by simp, by simp, fun _ => ⟨rfl, rfl⟩⟩
  | @pass R s s1 s' r _ ha hr hp ih =>
    obtain ⟨k, i, H⟩ := ih
    obtain ⟨e1, e2, e3, e4, e5, e6⟩ := H.snoc hr
    obtain ⟨c1, c2⟩ := pass_iter hp
    have hl := H.live
    have hk := H.rho
    rw [← hlive.2] at hl hk
    rcases hl.pass hk hp with ⟨s'', k', hr', l', _, _, _, _, r'⟩ | ⟨q, _, hr', _⟩
    · injection hr' with hr'
      subst hr'
      obtain ⟨l, _, ⟨s'', hr', _, hc⟩ | ⟨_, _, ⟨⟩, _⟩ | ⟨_, _, ⟨⟩, _⟩⟩ := pass_out H.live.outer H.inner hp
      injection hr' with hr'
      subst hr'
      rw [hlive.2] at l' r'
      have hlen : (R ++ [r]).length = R.length + 1 := by simp
      have key : ∃ i', s'.inner = some i' ∧ (((k' : Int) = k ∧ i' = i + 1) ∨ ((k : Int) < k' ∧ i' = 0)) := by
        have ho := l'.outer
        rcases hc with ⟨g1, g2⟩ | ⟨k2, g0, g1, g2⟩
        · rw [g1] at ho
          injection ho with ho
          exact ⟨_, g2, Or.inl ⟨ho.symm, rfl⟩⟩
        · rw [g1] at ho
          injection ho with ho
          exact ⟨_, g2, Or.inr ⟨by omega, rfl⟩⟩
      obtain ⟨i', hi', hc'⟩ := key
      refine ⟨k', i', ?_, Or.inr r', hi', ?_, ?_, e3, e4, e5, e6, ?_, ?_⟩
      · rw [hlen]; exact l'
      · rw [hlen, c1, H.calls]; omega
      · rw [hlen]
        obtain ⟨req, hreq⟩ := c2
        refine ⟨req, ?_⟩
        rw [hreq, H.calls]
        congr 3
      · intro a ha
        simp only [List.getLast?_append, List.getLast?_singleton, Option.some_or, Option.mem_def, Option.some.injEq] at ha
        subst ha
        rw [e1, e2]
        exact hc'
      · simp
    · cases hr'

/-- `R` is the table of a run from `o` to `o'`.  The statistics object holds one record per iteration, and the printed lines of
the iteration table are those belonging to the records.  The first record is iteration `0` of outer iteration `0`; each further one
is the next inner iteration or iteration `0` of a later outer iteration; the penalty parameter belongs to the number of the outer
iteration; the number of QP iterations is that reported by the QP solver for the call in question. -/
structure IsTable (e : Env α) (o o' : Obj α) (R : List (Rec α)) : Prop where
  total : o'.s.stats.iterTotal = R.length
  held : o'.s.stats.Table R
  printed : ∃ new, o'.s.out = o.s.out ++ new ∧ tableLines new = R.flatMap (Rec.shown o.d.opts.printLevel)
  chain : R.IsChain Rec.Next
  head : ∀ a ∈ R.head?, a.outer = 0 ∧ a.inner = 0
  rho : ∀ a ∈ R, a.rho = penalty o.d.opts a.outer.toNat
  sub : ∀ j (h : j < R.length), ∃ req, R[j].sub = (e.qp (o.s.calls + j) req).iter

theorem run_table {e : Env α} {o : Obj α} {fuel : Nat} {r : RV × Obj α} {i : RV × Obj α}
    (h : runSolver e fuel o = .ok (some r)) (hi : initializeSolver e o = .ok i) (hok : i.1 = .successfulReturn)
    (hb : o.d.opts.storeSteps = true) :
    ∃ R : List (Rec α), IsTable e o r.2 R ∧ ((R = [] ∧ r.1 ≠ .successfulReturn) ∨
      ∃ s0 s s1 R' rec, R = R' ++ [rec] ∧ Enters e o r.2.d s0 ∧ Trail e r.2.d s0 R' s ∧ advance r.2.d s = .ok s1 ∧
        RecOf r.2.d s s1 rec ∧ LCQ.pass e r.2.d s = .ok (.inr (r.1, r.2.s))) := by
  have hopts : r.2.d.opts = o.d.opts := (run_ended h hi hok).2.1
  obtain ⟨R, hl, hc⟩ := run_log h hi hok hb
  rcases hc with ⟨rfl, hne, h0⟩ | ⟨s0, s, s1, R', rec, rfl, h0, hp, ha, hr, hps⟩
  · exact ⟨[], ⟨h0, hl.tab, by rw [← hopts]; exact hl.out, .nil, by simp, by simp, by simp⟩, Or.inl ⟨rfl, hne⟩⟩
  · obtain ⟨k, i, H⟩ := hp.heads h0
    have hlv := H.live
    have hk := H.rho
    rw [← hopts] at hlv hk
    obtain ⟨_, _, g1, g2, g3, g4⟩ := H.snoc hr
    refine ⟨_, ⟨?_, hl.tab, by rw [← hopts]; exact hl.out, g1, g2, g3, g4⟩, Or.inr ⟨s0, s, s1, R', rec, rfl, h0, hp, ha, hr, hps⟩⟩
    rcases hlv.pass hk hps with ⟨_, _, ⟨⟩, _⟩ | ⟨q, k', hq, hend, _⟩
    injection hq with hq
    subst hq
    rw [hend.counts.2.1]
    simp

/-- A run that stores its steps has a table. -/
theorem C56_table {e : Env α} {o : Obj α} {fuel : Nat} {r : RV × Obj α} {i : RV × Obj α}
    (h : runSolver e fuel o = .ok (some r)) (hi : initializeSolver e o = .ok i) (hok : i.1 = .successfulReturn)
    (hb : o.d.opts.storeSteps = true) : ∃ R : List (Rec α), IsTable e o r.2 R := by
  obtain ⟨R, hR, _⟩ := run_table h hi hok hb
  exact ⟨R, hR⟩

/-- After success the last recorded stationarity value and the last recorded complementarity value are below the tolerances. -/
theorem C56_last {e : Env α} {o o' : Obj α} {fuel : Nat} (h : runSolver e fuel o = .ok (some (.successfulReturn, o')))
    (hb : o.d.opts.storeSteps = true) : ∃ a b, o'.s.stats.statVals.getLast? = some a ∧ (a <. o.d.opts.statTol) = true ∧
      o'.s.stats.phiVals.getLast? = some b ∧ (b <. o.d.opts.complTol) = true := by
  obtain ⟨i, hi, hc⟩ := runSolver_inv h
  have hok : i.1 = .successfulReturn := by
    rcases hc with ⟨hne, hr⟩ | ⟨hok, _⟩
    · injection hr with hr _
      exact absurd hr.symm hne
    · exact hok
  have hopts : o'.d.opts = o.d.opts := (run_ended h hi hok).2.1
  obtain ⟨R, hR, ⟨_, hne⟩ | ⟨s0, s, s1, R', rec, rfl, h0, hp, ha, hr, hps⟩⟩ := run_table h hi hok hb
  · exact absurd rfl hne
  dsimp only at hr hps ha
  refine ⟨rec.stat, rec.phi, ?_, ?_, ?_, ?_⟩
  · rw [hR.held.stat]; simp
  rotate_left
  · rw [hR.held.phi]; simp
  all_goals
    obtain ⟨t1, s2, s3, h1, h2, h3, ⟨hst, hco, q, hq, hqq⟩ | ⟨s4, t, rho, _, _, _, h5⟩⟩ := pass_inv hps
    rotate_left
    · exfalso
      rcases h5 with ⟨_, ⟨⟩⟩ | ⟨_, _, ⟨⟩⟩ | ⟨_, _, h5⟩
      obtain ⟨gk, q', _, ⟨hne, h6⟩ | ⟨_, _, _, _, _, ⟨⟩⟩⟩ := nextStep_inv h5
      injection h6 with h6
      injection h6 with h6 _
      exact hne h6.symm
    have := ha.symm.trans h1
    injection this with this
    subst this
    obtain ⟨hh, gk, rfl⟩ := no_update_before_success h2 h3 hco
  · have hco' : complementarityCheck o'.d s1 = .ok true := (complementarityCheck_congr (by rfl)).trans hco
    simp only [complementarityCheck, hr.phi, ok_bind, hopts] at hco'
    injection hco'
  · obtain ⟨n, v, g1, g2, g3⟩ := hr.stat
    simp only [stationarityCheck, g1, g2, g3, initd_some, deref_some, ok_bind, hopts] at hst
    injection hst

end

section
variable {K : Type} [Field K] [LinearOrder K] {n : Dims}

/-- `m` is the largest absolute value of an entry of `v` -/
def NormIs (m : Ext K) {k : Nat} (v : Fin k → K) : Prop := ∃ t : K, m = fin t ∧ (∀ i, |v i| ≤ t) ∧ ∃ i, |v i| = t

/-- mathematical data of an iteration: point, step, step length, penalty parameter, multipliers -/
structure Row (K : Type) (n : Dims) (off : Nat) where
  /-- point reached -/
  x : Fin n.nV → K
  /-- step -/
  p : Fin n.nV → K
  /-- step length -/
  a : K
  /-- penalty parameter -/
  r : K
  /-- multipliers of the subproblem -/
  y : Fin (off + n.nA) → K

/-- The record `rec` describes the iteration `t` for the problem `P`.  The stationarity value belongs to the gradient of the
penalised Lagrangian, without the linear part `r * g_phi` of the penalty in outer iteration `0`; the merit value contains the
quadratic part of the penalty only. -/
structure Row.Describes {off : Nat} (P : Prob K n) (r0 f : K) (rec : Rec (Ext K)) (t : Row K n off) : Prop where
  x : rec.x = ev t.x
  len : rec.len = fin t.a
  rho : rec.rho = fin t.r
  size : NormIs rec.size t.p
  obj : rec.obj = fin (P.obj t.x)
  phi : rec.phi = fin (P.phi t.x)
  merit : rec.merit = fin (P.obj t.x + t.r * (t.x ⬝ᵥ (P.C *ᵥ t.x)) / 2)
  stat : NormIs rec.stat (P.penResidual t.r t.x t.y - if 0 < rec.outer then 0 else t.r • P.gPhi)
  outer : 0 ≤ rec.outer ∧ t.r = r0 * f ^ rec.outer.toNat
  mem : 0 < t.a ∧ t.a ≤ 1

/-- The iterations `T`, beginning with the call `c0` of the QP solver from the point `x0`, end with the next call `c` from
the point `x`.  Each step leads from the last point to the point answered by the QP solver, whose multipliers are used; unless the
iterate is perturbed, the new point is the last point plus step length times step. -/
inductive Rows (e : Env (Ext K)) (perturb : Bool) {off : Nat} (c0 : Nat) (x0 : Fin n.nV → K) : List (Row K n off) → Nat → (Fin n.nV → K) → Prop
  | nil : Rows e perturb c0 x0 [] c0 x0
  | snoc {T : List (Row K n off)} {c : Nat} {x : Fin n.nV → K} {t : Row K n off} : Rows e perturb c0 x0 T c x →
      (∃ sub req, QpOk sub (e.qp c req) ∧ AnsIs sub (e.qp c req) (x + t.p) t.y) → (perturb = false → t.x = x + t.a • t.p) →
      Rows e perturb c0 x0 (T ++ [t]) (c + 1) t.x

variable [IsStrictOrderedRing K] {e : Env (Ext K)} {o : Obj (Ext K)} {P : Prob K n} {x0 : Fin n.nV → K} {r0 f : K} {d : Data (Ext K)}

theorem normIs_of {k : Nat} (hk : k ≠ 0) {v : Fin k → K} {m : Ext K} (h : maxAbs (ev v) k = .ok m) : NormIs m v := by
  obtain ⟨t, h1, h2, h3⟩ := C06_finite (List.ofFn v)
  rw [List.length_ofFn] at h1
  have := h.symm.trans h1
  injection this with this
  refine ⟨t, this, fun i => h2 _ (List.mem_ofFn.mpr ⟨i, rfl⟩), ?_⟩
  rcases h3 with ⟨h3, _⟩ | ⟨w, hw, h3⟩
  · have := congrArg List.length h3
    simp at this
    exact absurd this hk
  · obtain ⟨i, rfl⟩ := List.mem_ofFn.mp hw
    exact ⟨i, h3⟩

/-- the record made at a head -/
theorem RecOf.describes {off : Nat} (hd : DataIs d n P off) {s s1 : St (Ext K)} {rec : Rec (Ext K)} (hr : RecOf d s s1 rec)
    (ha : advance d s = .ok s1) {r a : K} {b : Bool} {x p : Fin n.nV → K} {y : Fin (off + n.nA) → K} (hs : XSt d n P off s r b x p a y)
    (hb : OutB s b) (hQ : d.sparse = true → P.Qᵀ = P.Q) (hm : 0 < a ∧ a ≤ 1) (hrho : rec.rho = fin (r0 * f ^ rec.outer.toNat)) :
    Row.Describes P r0 f rec ⟨x + a • p, p, a, r, y⟩ := by
  obtain ⟨h1, h2, _, _⟩ := advance_x hd hs ha
  have hdim : ∀ {n' : Dims}, d.dims = some n' → n' = n := fun h => by
    have := hd.dims.symm.trans h
    injection this with this
    exact this.symm
  obtain ⟨k, hk, hk0, hkb⟩ := hb
  have hko : k = rec.outer := by
    have := hk.symm.trans hr.outer
    injection this
  subst hko
  refine ⟨?_, ?_, ?_, ?_, ?_, ?_, ?_, ?_, ?_, hm⟩
  · obtain ⟨n', v, g1, g2, _, g4⟩ := hr.x
    have := hdim g1
    subst this
    rw [h1.xk] at g2
    injection g2 with g2
    rw [g4, ← g2, List.take_of_length_le (by simp)]
  · have := hr.len.symm.trans hs.alpha
    injection this
  · have := hr.rho.symm.trans hs.rho
    injection this
  · obtain ⟨n', v, g1, g2, g3⟩ := hr.size
    have := hdim g1
    subst this
    rw [hs.pk] at g2
    injection g2 with g2
    rw [← g2] at g3
    exact normIs_of hd.nV g3
  · have := hr.obj.symm.trans (getObj_x hd h1.xk)
    injection this
  · have := hr.phi.symm.trans (getPhi_x hd h1.xk)
    injection this
  · have := hr.merit.symm.trans (getMerit_x hd h1.xk h1.Qk)
    injection this with this
    rw [this]
    congr 1
    simp only [Prob.obj, Matrix.add_mulVec, Matrix.smul_mulVec, dotProduct_add, dotProduct_smul, smul_eq_mul]
    ring
  · obtain ⟨n', v, g1, g2, g3⟩ := hr.stat
    have := hdim g1
    subst this
    rw [h2] at g2
    injection g2 with g2
    rw [← g2] at g3
    have := normIs_of hd.nV g3
    rw [stat_eq _ _ _ _ hQ] at this
    convert this using 3
    exact hkb.symm
  · refine ⟨hk0, ?_⟩
    have := hr.rho.symm.trans hs.rho
    injection this with this
    rw [hrho] at this
    injection this with this
    exact this.symm

/-- heads with their rows -/
theorem Trail.rows (hS : Setup e o n P x0 r0 f) (hQ : o.d.sparse = true → P.Qᵀ = P.Q) {s0 s : St (Ext K)} {R : List (Rec (Ext K))}
    (h0 : Enters e o d s0) (h : Trail e d s0 R s) :
    ∃ off, DataIs d n P off ∧ d.sparse = o.d.sparse ∧ ∃ T : List (Row K n off), List.Forall₂ (Row.Describes P r0 f) R T ∧
      ∃ (c : Nat) (z : Fin n.nV → K), Rows e o.d.opts.perturb o.s.calls x0 T c z ∧
      ∃ (r : K) (b : Bool) (x p : Fin n.nV → K) (a : K) (y : Fin (off + n.nA) → K),
        XSt d n P off s r b x p a y ∧ OutB s b ∧ (o.d.opts.perturb = false → x = z) ∧ (0 < a ∧ a ≤ 1) ∧
        s.calls = c + 1 ∧ ∃ sub req, QpOk sub (e.qp c req) ∧ AnsIs sub (e.qp c req) (z + p) y := by
  obtain ⟨off, h1, h2, h3, h4, v, y, sub, lA, uA, y0, h5, h6, _, _, _, h7, h8⟩ :=
    enters_x hS.ready hS.holds hS.x0 hS.rho0 hS.ans h0
  refine ⟨off, h2, h4, ?_⟩
  induction h with
  | start =>
    refine ⟨[], .nil, _, _, .nil, _, _, _, _, _, _, h5, h6, fun _ => rfl, ⟨one_pos, le_refl 1⟩, (first_iter h0).1, _, _, h7, ?_⟩
    rw [add_sub_cancel]
    exact h8
  | @pass R s s1 s' rec hp ha hr hps ih =>
    obtain ⟨T, hT, c, z, hz, r, b, x, p, a, y, hx, hb, hxz, hm, hc, sub, req, hq, hans⟩ := ih
    obtain ⟨r', b', c', k, x', v, y', sub', lA, uA, _, hb', _, _, _, hxe, hx', hq', hans', hcc, hcs⟩ :=
      pass_x h1 h2 hS.ans (by rw [h3]; exact hS.factor) hS.f0 hx hb hps
    have hrho : rec.rho = fin (r0 * f ^ rec.outer.toNat) := by
      obtain ⟨k, i, H⟩ := hp.heads h0
      have := (H.snoc hr).2.2.2.2.1 rec (by simp)
      rw [this, penalty_fin hS.rho0 hS.factor]
    have hdes := hr.describes (r0 := r0) (f := f) h2 ha hx hb (by rw [h4]; exact hQ) hm hrho
    refine ⟨T ++ [⟨x + a • p, p, a, r, y⟩], List.rel_append hT (.cons hdes .nil), c + 1, x + a • p, ?_, ?_⟩
    · refine Rows.snoc (t := ⟨x + a • p, p, a, r, y⟩) hz ⟨sub, req, hq, hans⟩ ?_
      intro hper
      rw [← hxz hper]
    · have hc' : c' = c + 1 := hcc.trans hc
      subst hc'
      refine ⟨_, _, _, _, _, _, hx', hb', ?_, alphaOf_mem _ _, hcs, sub', _, hq', ?_⟩
      · intro hper
        rw [hxe, h3, hper]
        rfl
      · rw [add_sub_cancel]; exact hans'

/-- Meaning of the recorded values, in exact arithmetic: the records of a run that stores its steps describe a sequence of
iterations from the initial guess. -/
theorem C56_rows (hS : Setup e o n P x0 r0 f) (hQ : o.d.sparse = true → P.Qᵀ = P.Q) (hb : o.d.opts.storeSteps = true)
    {fuel : Nat} {r : RV × Obj (Ext K)} {i : RV × Obj (Ext K)} (h : runSolver e fuel o = .ok (some r))
    (hi : initializeSolver e o = .ok i) (hok : i.1 = .successfulReturn) :
    ∃ R : List (Rec (Ext K)), IsTable e o r.2 R ∧
      ∃ (off : Nat) (T : List (Row K n off)), List.Forall₂ (Row.Describes P r0 f) R T ∧
        ∃ c z, Rows e o.d.opts.perturb o.s.calls x0 T c z := by
  obtain ⟨R, hR, ⟨rfl, _⟩ | ⟨s0, s, s1, R', rec, rfl, h0, hp, ha, hr, hps⟩⟩ := run_table h hi hok hb
  · exact ⟨[], hR, 0, [], .nil, _, _, .nil⟩
  · obtain ⟨off, hd, hsp, T, hT, c, z, hz, r', b, x, p, a, y, hx, hb, hxz, hm, hc, sub, req, hq, hans⟩ := hp.rows hS hQ h0
    have hrho : rec.rho = fin (r0 * f ^ rec.outer.toNat) := by
      rw [hR.rho rec (by simp), penalty_fin hS.rho0 hS.factor]
    have hdes := hr.describes (r0 := r0) (f := f) hd ha hx hb (by rw [hsp]; exact hQ) hm hrho
    refine ⟨_, hR, off, T ++ [⟨x + a • p, p, a, r', y⟩], List.rel_append hT (.cons hdes .nil), c + 1, x + a • p, ?_⟩
    refine Rows.snoc (t := ⟨x + a • p, p, a, r', y⟩) hz ⟨sub, req, hq, hans⟩ ?_
    intro hper
    rw [← hxz hper]

/-- the recorded merit value is the value of the penalty function if the lower complementarity bounds vanish -/
theorem C56_merit {off : Nat} {rec : Rec (Ext K)} {t : Row K n off} (h : Row.Describes P r0 f rec t) (hL : P.lbL = 0) (hR : P.lbR = 0) :
    rec.merit = fin (P.pen t.r t.x) := by
  rw [h.merit, Prob.pen, P.phi_eq, Prob.gPhi, hL, hR]
  simp only [Matrix.mulVec_zero, add_zero, neg_zero, zero_dotProduct, zero_add]
  congr 2
  ring

/-- the distance of two successive recorded iterates is step length times step size, if the iterate is not perturbed -/
theorem C56_distance {off : Nat} {rec : Rec (Ext K)} {x : Fin n.nV → K} {t : Row K n off} (h : Row.Describes P r0 f rec t)
    (hx : t.x = x + t.a • t.p) : ∃ a m : K, rec.len = fin a ∧ rec.size = fin m ∧ NormIs (fin (a * m)) (t.x - x) := by
  obtain ⟨m, h1, h2, i, h3⟩ := h.size
  have e : ∀ i, |(t.x - x) i| = t.a * |t.p i| := by
    intro i
    rw [hx]
    simp [abs_mul, abs_of_pos h.mem.1]
  refine ⟨t.a, m, h.len, h1, _, rfl, ?_, i, ?_⟩
  · intro i
    rw [e]
    exact mul_le_mul_of_nonneg_left (h2 i) h.mem.1.le
  · rw [e, h3]

end

namespace Ex

/-- what is looked at in a result -/
structure Seen where
  x : List (List (Ext ℚ))
  obj : List (Ext ℚ)
  phi : List (Ext ℚ)
  merit : List (Ext ℚ)
  len : List (Ext ℚ)
  size : List (Ext ℚ)
  deriving DecidableEq

/-- what is looked at in the statistics of a result -/
def table (r : M (Option (RV × Obj (Ext ℚ)))) : Option Seen := match r with
  | .ok (some p) => some ⟨p.2.s.stats.xSteps, p.2.s.stats.objVals, p.2.s.stats.phiVals, p.2.s.stats.meritVals, p.2.s.stats.stepLength,
      p.2.s.stats.stepSize⟩
  | _ => none

/-- what is printed of the iteration table -/
def lines (r : M (Option (RV × Obj (Ext ℚ)))) : Option (List (Ev (Ext ℚ))) := match r with
  | .ok (some p) => some (tableLines p.2.s.out)
  | _ => none

theorem table1 : table (go (solver ans1) opts args1 20) = some ⟨[emb [1, 1], emb [1, 199/200], emb [1, 199/200]],
    emb [-2, -79999/40000, -79999/40000], emb [0, 0, 0], emb [-199/100, -79601/40000, -79601/40000], emb [1, 1, 1], emb [1, 1/200, 0]⟩ := by
  decide +kernel

end Ex

/-- The recorded merit value is not the value of the penalty function `obj + rho * phi` in general: this run of the problem
`min (x-1)² + (y-1)²` subject to `0 ≤ x - 1 ⟂ y ≥ 0` ends in a point with complementarity violation `0`, where the penalty function
is the objective; the last recorded merit value differs from the last recorded objective value. -/
theorem C56_merit_fails : ∃ (e : Env (Ext ℚ)) (o o' : Obj (Ext ℚ)) (P : Prob ℚ ⟨2, 0, 1⟩) (x : Fin 2 → ℚ) (r m : ℚ) (fuel : Nat),
    Setup e o ⟨2, 0, 1⟩ P (fun _ => 0) (1 / 100) 2 ∧ runSolver e fuel o = .ok (some (.successfulReturn, o')) ∧
    o'.s.xk = some (ev x) ∧ o'.s.rho = some (fin r) ∧ o'.s.stats.xSteps.getLast? = some (ev x) ∧
    o'.s.stats.objVals.getLast? = some (fin (P.obj x)) ∧ P.phi x = 0 ∧
    o'.s.stats.meritVals.getLast? = some (fin m) ∧ m ≠ P.pen r x := by
  obtain ⟨o, hl, hS, hsp, ho, hst⟩ := Ex.setup_of (v := fun _ => 0) (Ex.argsOf_are (Q := [2, 0, 0, 2]) (g := [-2, -2]) (lbL := [1])
    (lbR := [0]) (lb := none) (ub := none) (x0 := none) rfl rfl rfl rfl (by rintro v ⟨⟩) (by rintro v ⟨⟩) (Or.inl ⟨rfl, rfl⟩))
    (Ex.solver_fin Ex.ans1) (op := Ex.opts) (r0 := 1 / 100) (f := 2) (by decide +kernel) (by decide +kernel) (by decide) Ex.load1
  obtain ⟨o', hr, h1, h2, h3, h4, h5, h6⟩ := Ex.look_inv hl Ex.look1
  have ht := Ex.table1
  simp only [Ex.go] at ht
  rw [show loadDense (Ex.solver Ex.ans1) (Obj.new Ex.opts 2 0 1) Ex.args1 = .ok (.successfulReturn, o) from hl] at ht
  simp only [ok_bind, hr, Ex.table] at ht
  injection ht with ht
  simp only [Ex.Seen.mk.injEq] at ht
  obtain ⟨t1, t2, t3, t4, _, _⟩ := ht
  refine ⟨_, o, o', Ex.prob1, ![1, 199 / 200], 1 / 100, -79601 / 40000, 20, hS, hr, ?_, h3, ?_, ?_, ?_, ?_, ?_⟩
  · rw [h4]; decide +kernel
  · rw [t1]; decide +kernel
  · rw [t2]; decide +kernel
  · decide +kernel
  · rw [t4]; decide +kernel
  · decide +kernel

/-- what is printed with level 2 -/
example : Ex.lines (Ex.go (Ex.solver Ex.ans1) { Ex.opts with printLevel := 2 } Ex.args1 20) = some [.header,
    .iter 0 0 (fin (1/100)) (fin 0) (fin (1/100)) (fin 1) (some (fin 1, 3)),
    .iter 0 1 (fin (1/20000)) (fin 0) (fin (1/100)) (fin (1/200)) (some (fin 1, 3)),
    .iter 0 2 (fin 0) (fin 0) (fin (1/100)) (fin 0) (some (fin 1, 3))] := by decide +kernel

/-- what is printed with level 1: one line per outer iteration -/
example : Ex.lines (Ex.go (Ex.solver Ex.ans2) { Ex.opts2 with printLevel := 1 } Ex.args2 20) = some [.header,
    .iter 0 0 (fin 2) (fin 1) (fin 1) (fin 2) none, .iter 1 0 (fin 1) (fin 0) (fin 2) (fin (1/2)) none] := by decide +kernel

/-- the recorded values of five iterations, with a penalty update after the third -/
example : Ex.table (Ex.go (Ex.solver Ex.ans2) Ex.opts2 Ex.args2 20) = some
    ⟨[emb [2, 1], emb [3/2, 1], emb [3/2, 1], emb [1, 1], emb [1, 1]], emb [-5, -19/4, -19/4, -4, -4], emb [1, 1/2, 1/2, 0, 0],
      emb [-3, -13/4, -13/4, -2, -2], emb [1, 1, 1, 1, 1], emb [2, 1/2, 0, 1/2, 0]⟩ := by decide +kernel

/-- the hypotheses of `C56_last` hold in the first example -/
example : ∃ (o' : Obj (Ext ℚ)) (a : Ext ℚ), o'.s.stats.statVals.getLast? = some a ∧ (a <. Ex.opts.statTol) = true := by
  obtain ⟨o, o', _, _, ho, _, hr, _⟩ := Ex.wit1
  obtain ⟨a, _, h1, h2, _⟩ := C56_last hr (by rw [ho]; rfl)
  exact ⟨o', a, h1, by rw [← ho]; exact h2⟩

/-- the hypotheses of `C56_rows` hold in the first example, with a nonempty table -/
example : ∃ (o o' : Obj (Ext ℚ)) (R : List (Rec (Ext ℚ))), IsTable (Ex.solver Ex.ans1) o o' R ∧ R ≠ [] ∧
    ∃ (off : Nat) (T : List (Row ℚ Ex.dim off)), List.Forall₂ (Row.Describes Ex.prob1 (1 / 100) 2) R T := by
  obtain ⟨o, o', hS, hsp, ho, _, hr, _⟩ := Ex.wit1
  obtain ⟨i, hi, hc⟩ := runSolver_inv hr
  have hok : i.1 = .successfulReturn := by
    rcases hc with ⟨hne, h⟩ | ⟨hok, _⟩
    · injection h with h _
      exact absurd h.symm hne
    · exact hok
  have hb : o.d.opts.storeSteps = true := by rw [ho]; rfl
  obtain ⟨R, hR, off, T, hT, _⟩ := C56_rows hS (by rw [hsp]; simp) hb hr hi hok
  refine ⟨o, o', R, hR, ?_, off, T, hT⟩
  rintro rfl
  obtain ⟨a, _, h1, _⟩ := C56_last hr hb
  rw [hR.held.stat] at h1
  cases h1

end LCQ
