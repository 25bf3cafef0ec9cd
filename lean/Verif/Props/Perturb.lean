import Verif.Props.Feasible

/-!
# C37: perturbation of steps

`Utilities::EPS` is the constant 2.221e-16, /repo/include/Utilities.hpp (see `Scalar.eps`).
-/

set_option linter.unusedSectionVars false

namespace LCQ
open Scalar Ext
open scoped Matrix

section
variable {α : Type} [Scalar α] {n : Dims} {d : Data α} {s : St α} {e : Env α}

/-- `y` arises from `x` by adding `-1`, `0` or `1` times EPS to each entry -/
def Nudged (x y : List α) : Prop :=
  y.length = x.length ∧ ∀ i < x.length, ∃ c : Int, (c = -1 ∨ c = 0 ∨ c = 1) ∧ y[i]? = (x[i]?).map (· +. ofInt c *. eps)

theorem nudged_loop {k m : Nat} {x : List α} (hx : x.length = m) : ∃ y, perturbLoop e k m x = .ok y ∧ Nudged x y := by
  refine ⟨_, perturbLoop_eq hx, by simp [hx], ?_⟩
  intro i hi
  refine ⟨((e.rnd (k + i) % 3 : Nat) : Int) - 1, by omega, ?_⟩
  have hi' : i < m := by omega
  simp [tab, hi, hi', gt, List.getD_eq_getElem?_getD]

/-- C37: perturbing the step changes the iterate only, by `-1`, `0` or `1` times EPS in each coordinate, in any arithmetic;
it uses `nV` random numbers. -/
theorem C37_step (hd : d.dims = some n) {x : List α} (hx : s.xk = some x) (lx : x.length = n.nV) :
    ∃ y, perturbStep e d s = .ok { s with
      xk := some y
      rnd := s.rnd + n.nV } ∧ Nudged x y := by
  obtain ⟨y, h1, h2⟩ := nudged_loop (e := e) (k := s.rnd) lx
  refine ⟨y, ?_, h2⟩
  simp only [perturbStep, hd, hx, initd_some, deref_some, ok_bind, h1]

/-- C37: the same for the gradient (never called by the solver). -/
theorem C37_gradient (hd : d.dims = some n) {g : List α} (hg : s.gk = some g) (lg : g.length = n.nV) :
    ∃ y, perturbGradient e d s = .ok { s with
      gk := some y
      rnd := s.rnd + n.nV } ∧ Nudged g y := by
  obtain ⟨y, h1, h2⟩ := nudged_loop (e := e) (k := s.rnd) lg
  refine ⟨y, ?_, h2⟩
  simp only [perturbGradient, hd, hg, initd_some, deref_some, ok_bind, h1]

/-- the three cases occur -/
example : Nudged (emb [1, 1, 1] : List (Ext ℚ)) [fin (1 - 2221 / 10 ^ 19), fin 1, fin (1 + 2221 / 10 ^ 19)] := by
  refine ⟨rfl, ?_⟩
  intro i hi
  match i, hi with
  | 0, _ => exact ⟨-1, by decide, by decide +kernel⟩
  | 1, _ => exact ⟨0, by decide, by decide +kernel⟩
  | 2, _ => exact ⟨1, by decide, by decide +kernel⟩

end

/-! ## drift of the iterates -/

section
variable {K : Type} [Field K] [LinearOrder K] [IsStrictOrderedRing K] {n : Dims} {P : Prob K n} {e : Env (Ext K)}
  {o : Obj (Ext K)} {x0 : Fin n.nV → K} {r0 f : K} {d : Data (Ext K)} {lA uA : Fin n.nA → Ext K} {l u : Fin n.nV → Ext K}

/-- states after `k` passes of the main loop -/
inductive Passes (e : Env (Ext K)) (d : Data (Ext K)) (s0 : St (Ext K)) : Nat → St (Ext K) → Prop
  | start : Passes e d s0 0 s0
  | pass {k : Nat} {s s' : St (Ext K)} : Passes e d s0 k s → pass e d s = .ok (.inl s') → Passes e d s0 (k + 1) s'

theorem Passes.reach {s0 s : St (Ext K)} {k : Nat} (h : Passes e d s0 k s) : Reach e d s0 s := by
  induction h with
  | start => exact .start
  | pass _ hp ih => exact .pass ih hp

theorem epsK_pos : (0 : K) < epsK := by unfold epsK; positivity

/-- `x` is in each coordinate within `t` of a feasible point -/
def NearFeas (P : Prob K n) (lA uA : Fin n.nA → Ext K) (l u : Fin n.nV → Ext K) (t : K) (x : Fin n.nV → K) : Prop :=
  ∃ y, Feasible P lA uA l u y ∧ ∀ i, |x i - y i| ≤ t

/-- whenever the QP solver reports success for a problem in `S`, each coordinate of the primal answer is within `t` of that of a
feasible point (`FeasOn` for `t = 0`) -/
def NearOn (e : Env (Ext K)) (n : Dims) (S : Qp K n → Prop) (t : K) : Prop :=
  ∀ k q p, q.Is n p → S p → QpOk q.sub (e.qp k q) → ∀ x : Fin n.nV → K, (∀ i, (e.qp k q).x i.1 = fin (x i)) →
    ∃ v, p.Feas v ∧ ∀ i, |x i - v i| ≤ t

theorem FeasOn.near {S : Qp K n → Prop} (h : FeasOn e n S) : NearOn e n S 0 :=
  fun k q p h1 h2 h3 x hx => ⟨x, h k q p h1 h2 h3 x hx, fun i => by simp⟩

/-- the iterate after `k` passes, the step to be made next and the point reached by it -/
theorem drift_head {t : K} (hS : Setup e o n P x0 r0 f) (hB : BoundsAre o n lA uA l u) (hF : NearOn e n (IsSub P lA uA l u) t)
    {s0 : St (Ext K)} (h0 : Enters e o d s0) (k : Nat) (s : St (Ext K)) (h : Passes e d s0 k s) :
    ∃ (x p : Fin n.nV → K) (a : K) (v : Fin n.nV → K), s.xk = some (ev x) ∧ s.pk = some (ev p) ∧
      s.alpha = some (fin a) ∧ 0 < a ∧ a ≤ 1 ∧ Feasible P lA uA l u v ∧ (k = 0 → a = 1 ∧ ∀ i, |(x + p) i - v i| ≤ t) ∧
      (0 < k → (∀ i, |(x + p) i - v i| ≤ t + epsK) ∧ NearFeas P lA uA l u (t + k * epsK) x) ∧
      NearFeas P lA uA l u (t + k * epsK) (x + a • p) := by
  have ep : (0 : K) < epsK := epsK_pos
  have step : ∀ (k : Nat) (xs ps v : Fin n.nV → K) (a' : K), 0 < a' → a' ≤ 1 → Feasible P lA uA l u v →
      (k = 0 → a' = 1 ∧ ∀ i, |(xs + ps) i - v i| ≤ t) →
      (0 < k → (∀ i, |(xs + ps) i - v i| ≤ t + epsK) ∧ NearFeas P lA uA l u (t + k * epsK) xs) →
      NearFeas P lA uA l u (t + k * epsK) (xs + a' • ps) := by
    intro k xs ps v a' a0 a1 hv hz hpos
    rcases Nat.eq_zero_or_pos k with h | h
    · obtain ⟨rfl, hv2⟩ := hz h
      refine ⟨v, hv, fun i => ?_⟩
      rw [one_smul, h]
      simpa using hv2 i
    · obtain ⟨hxp, y, hy, hxy⟩ := hpos h
      refine ⟨y + a' • (v - y), hy.comb hv a0.le a1, fun i => ?_⟩
      have g1 := abs_le.mp (hxp i)
      have g2 := abs_le.mp (hxy i)
      have k1 : (1 : K) ≤ k := by exact_mod_cast h
      have k2 : (1 : K) * epsK ≤ k * epsK := mul_le_mul_of_nonneg_right k1 ep.le
      have b0 : 0 ≤ 1 - a' := by linarith
      have e4 : (xs + a' • ps) i - (y + a' • (v - y)) i = (1 - a') * (xs i - y i) + a' * ((xs + ps) i - v i) := by
        simp only [Pi.add_apply, Pi.smul_apply, Pi.sub_apply, smul_eq_mul]
        ring
      have c1 := mul_le_mul_of_nonneg_left g1.1 a0.le
      have c2 := mul_le_mul_of_nonneg_left g1.2 a0.le
      have c3 := mul_le_mul_of_nonneg_left g2.1 b0
      have c4 := mul_le_mul_of_nonneg_left g2.2 b0
      have c5 := mul_le_mul_of_nonneg_left k2 a0.le
      rw [e4, abs_le]
      constructor <;> linarith
  induction h with
  | start =>
    obtain ⟨q, w, hq, _, hok, hw, hx, hp, ha, _⟩ := C48_first hS hB h0
    obtain ⟨v, hv, hvw⟩ := hF _ _ _ hq ⟨_, rfl⟩ hok w hw
    have hz : (0 : Nat) = 0 → (1 : K) = 1 ∧ ∀ i, |(x0 + (w - x0)) i - v i| ≤ t := fun _ => ⟨rfl, by
      rw [add_sub_cancel]; exact hvw⟩
    exact ⟨x0, w - x0, 1, v, hx, hp, ha, one_pos, le_refl 1, feas_any hv, hz,
      fun h => absurd h (lt_irrefl _), step 0 _ _ _ _ one_pos (le_refl 1) (feas_any hv) hz fun h => absurd h (lt_irrefl _)⟩
  | @pass k s1 s2 hr hp ih =>
    obtain ⟨x, p, a, v, h1, h2, h3, a0, a1, hv, hz, hpos, hf⟩ := ih
    obtain ⟨q, xs, ps, w, a', r, b, e1, e2, e3, _, _, hq, _, hok, hw, hpk, _, x', hx', hnear⟩ := C48_next hS hB ⟨s0, h0, hr.reach⟩ hp
    rw [e1] at h1
    rw [e2] at h2
    rw [e3] at h3
    have h1 : xs = x := ev_inj (Option.some.inj h1)
    have h2 : ps = p := ev_inj (Option.some.inj h2)
    have h3 : a' = a := by injection h3 with h3; injection h3
    subst h1 h2 h3
    obtain ⟨a2, ha2, p2, l2⟩ := C26_range hS ⟨s0, h0, (hr.pass hp).reach⟩
    have hd : ∀ i, |x' i - (xs + a' • ps) i| ≤ epsK := by
      intro i
      rw [abs_le]
      rcases hnear i with h | h | h <;> rw [h] <;> constructor <;> linarith
    obtain ⟨v', hv', hvw⟩ := hF _ _ _ hq ⟨_, rfl⟩ hok w hw
    have hv2 := feas_any hv'
    have hz2 : k + 1 = 0 → a2 = 1 ∧ ∀ i, |(x' + (w - (xs + a' • ps))) i - v' i| ≤ t := fun h => by omega
    have hp2 : 0 < k + 1 → (∀ i, |(x' + (w - (xs + a' • ps))) i - v' i| ≤ t + epsK) ∧
        NearFeas P lA uA l u (t + (k + 1 : Nat) * epsK) x' := by
      refine fun _ => ⟨?_, ?_⟩
      · intro i
        have : (x' + (w - (xs + a' • ps))) i - v' i = (w i - v' i) + (x' i - (xs + a' • ps) i) := by
          simp only [Pi.add_apply, Pi.sub_apply]
          ring
        rw [this]
        exact (abs_add_le _ _).trans (add_le_add (hvw i) (hd i))
      · obtain ⟨y, hy, hxy⟩ := hf
        refine ⟨y, hy, fun i => ?_⟩
        have g1 := abs_le.mp (hd i)
        have g2 := abs_le.mp (hxy i)
        rw [abs_le]
        push_cast
        constructor <;> linarith
    exact ⟨x', _, a2, v', hx', hpk, ha2, p2, l2, hv2, hz2, hp2, step _ _ _ _ _ p2 l2 hv2 hz2 hp2⟩

/-- C37: with or without perturbation, after `k ≥ 1` passes the iterate is within `k * EPS` of a point satisfying all linear
constraints, side constraints and bounds, if the QP solver returns feasible points. -/
theorem C37_drift (hS : Setup e o n P x0 r0 f) (hB : BoundsAre o n lA uA l u) (hF : FeasOn e n (IsSub P lA uA l u))
    {s0 s : St (Ext K)} (h0 : Enters e o d s0) {k : Nat} (h : Passes e d s0 (k + 1) s) :
    ∃ x, s.xk = some (ev x) ∧ NearFeas P lA uA l u ((k + 1 : Nat) * epsK) x := by
  obtain ⟨x, p, a, v, h1, _, _, _, _, _, _, h2, _⟩ := drift_head hS hB hF.near h0 _ _ h
  have := (h2 (by omega)).2
  rw [zero_add] at this
  exact ⟨x, h1, this⟩

theorem Reach.passes {s0 s : St (Ext K)} (h : Reach e d s0 s) : ∃ k, Passes e d s0 k s := by
  induction h with
  | start => exact ⟨0, .start⟩
  | pass _ hp ih =>
    obtain ⟨k, ih⟩ := ih
    exact ⟨k + 1, ih.pass hp⟩

theorem Passes.live {s0 s : St (Ext K)} (h0 : Enters e o d s0) {k : Nat} (h : Passes e d s0 k s) :
    ∃ j, Live d.opts s k j ∧ ((k = 0 ∧ j = 0) ∨ (d.opts.maxRho <. penalty d.opts j) = false) ∧ (k : Int) ≤ max 0 d.opts.maxIter := by
  induction h with
  | start =>
    obtain ⟨i, hi, hi1, rfl, hf⟩ := h0
    rcases Live.first hi hi1 hf with ⟨s, h, hl, _⟩ | ⟨q, hq, _⟩
    · injection h with h
      subst h
      rw [← (Live.start hi hi1).1] at hl
      exact ⟨0, hl, Or.inl ⟨rfl, rfl⟩, by simp⟩
    · cases hq
  | pass _ hp ih =>
    obtain ⟨j, hl, hk, _⟩ := ih
    rcases hl.pass hk hp with ⟨s', k', he, l', _, _, _, m', r'⟩ | ⟨q, k', he, _⟩
    · injection he with he
      subst he
      exact ⟨k', l', Or.inr r', by omega⟩
    · cases he

/-- C37: with or without perturbation, the point left by a run that counts `k + 1` iterations, with whatever return code, is
within `t + k * EPS` of a point satisfying all linear constraints, side constraints and bounds, if the first subproblem was solved
and the points returned by the QP solver are within `t` of feasible ones: the errors of the QP solver do not add up.  `k` is at most
the iteration limit. -/
theorem C37_inexact {t : K} (hS : Setup e o n P x0 r0 f) (hB : BoundsAre o n lA uA l u) (hF : NearOn e n (IsSub P lA uA l u) t)
    {fuel : Nat} {rv : RV} {o' : Obj (Ext K)} (h : runSolver e fuel o = .ok (some (rv, o'))) {s0 : St (Ext K)} (h0 : Enters e o d s0) :
    ∃ (k : Nat) (x : Fin n.nV → K), o'.s.stats.iterTotal = k + 1 ∧ (k : Int) ≤ max 0 o.d.opts.maxIter ∧ o'.s.xk = some (ev x) ∧
      NearFeas P lA uA l u (t + k * epsK) x := by
  obtain ⟨rfl, s, hs, hp⟩ := run_end h h0
  obtain ⟨xs, ps, a', e1, e2, e3, hx⟩ := pass_end hS hs hp
  obtain ⟨off, h0', hd, ho, _⟩ := hS.head hs
  obtain ⟨s0, h0, hr⟩ := hs
  obtain ⟨k, hk⟩ := hr.passes
  obtain ⟨j, hl, hj, hm⟩ := hk.live h0
  obtain ⟨x, p, a, v, h1, h2, h3, _, _, _, _, _, hn⟩ := drift_head hS hB hF h0 _ _ hk
  rw [e1] at h1
  rw [e2] at h2
  rw [e3] at h3
  have h1 : xs = x := ev_inj (Option.some.inj h1)
  have h2 : ps = p := ev_inj (Option.some.inj h2)
  have h3 : a' = a := by injection h3 with h3; injection h3
  subst h1 h2 h3
  refine ⟨k, _, ?_, by rw [← ho]; exact hm, hx, hn⟩
  rcases hl.pass hj hp with ⟨s', k', he, _⟩ | ⟨q, k', he, hE, _⟩
  · cases he
  · injection he with he
    subst he
    exact_mod_cast hE.counts.2.1

/-- C37: the same if the QP solver returns feasible points. -/
theorem C37_run (hS : Setup e o n P x0 r0 f) (hB : BoundsAre o n lA uA l u) (hF : FeasOn e n (IsSub P lA uA l u))
    {fuel : Nat} {rv : RV} {o' : Obj (Ext K)} (h : runSolver e fuel o = .ok (some (rv, o'))) {s0 : St (Ext K)} (h0 : Enters e o d s0) :
    ∃ (k : Nat) (x : Fin n.nV → K), o'.s.stats.iterTotal = k + 1 ∧ (k : Int) ≤ max 0 o.d.opts.maxIter ∧ o'.s.xk = some (ev x) ∧
      NearFeas P lA uA l u (k * epsK) x := by
  obtain ⟨k, x, h1, h2, h3, h4⟩ := C37_inexact hS hB hF.near h h0
  rw [zero_add] at h4
  exact ⟨k, x, h1, h2, h3, h4⟩

/-- C37: the same for a successful run. -/
theorem C37_returned {t : K} (hS : Setup e o n P x0 r0 f) (hB : BoundsAre o n lA uA l u) (hF : NearOn e n (IsSub P lA uA l u) t)
    {fuel : Nat} {o' : Obj (Ext K)} (h : runSolver e fuel o = .ok (some (.successfulReturn, o'))) :
    ∃ (k : Nat) (x : Fin n.nV → K), o'.s.stats.iterTotal = k + 1 ∧ (k : Int) ≤ max 0 o.d.opts.maxIter ∧ o'.s.xk = some (ev x) ∧
      NearFeas P lA uA l u (t + k * epsK) x := by
  obtain ⟨s, ⟨s0, h0, _⟩, _⟩ := run_last h
  exact C37_inexact hS hB hF h h0

end

end LCQ
