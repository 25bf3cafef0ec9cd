import Verif.Lemmas.ExactRun
import Verif.Lemmas.Ready
import Verif.Spec.Reach

/-!
# The main loop in exact arithmetic
-/

set_option linter.unusedSectionVars false

namespace LCQ
open Scalar Ext
open scoped Matrix

/-! ## the QP request -/

section
variable {α : Type} [Scalar α] {n : Dims} {d : Data α} {s : St α} {e : Env α} {off : Nat}

/-- the request sent by a QP call -/
def qpReq (d : Data α) (s : St α) (init : Bool) (sub : Sub α) (g lA uA : List α) : Req α :=
  ⟨sub, init, g, lA, uA, if init then s.xk else none, if init then s.yk else none, d.lb, d.ub, d.opts.qpoases, d.opts.osqp⟩

/-- a successful QP call: the request that was sent and the answer that was stored -/
theorem subSolve_req (hd : DataOK d n off) {init : Bool} {r : RV × St α} (h : subSolve e d s init = .ok r)
    (hr : r.1 = .successfulReturn) {g : List α} (hg : s.gk = some g) (lg : g.length = n.nV)
    (hx : HasOpt s.xk n.nV) (hy : HasOpt s.yk (off + n.nA)) :
    ∃ sub lA uA w, d.sub = some sub ∧ d.lbA = some lA ∧ d.ubA = some uA ∧
      QpOk sub (e.qp s.calls (qpReq d s init sub g lA uA)) ∧
      r.2 = { s with
        work := w
        calls := s.calls + 1
        qpIter := r.2.qpIter
        qpExit := r.2.qpExit
        ans := some (e.qp s.calls (qpReq d s init sub g lA uA)) } := by
  obtain ⟨lA, hlA, llA⟩ := hd.lbA
  obtain ⟨uA, huA, luA⟩ := hd.ubA
  have hx0 : copyOpt (if init then s.xk else none) n.nV = .ok (if init then s.xk else none) := by
    cases init
    · rfl
    · rcases hx with h | ⟨v, h, l⟩ <;> simp [h, copyOpt]
      rw [copyN_ok l]; rfl
  have hy0 : copyOpt (if init then s.yk else none) (off + n.nA) = .ok (if init then s.yk else none) := by
    cases init
    · rfl
    · rcases hy with h | ⟨v, h, l⟩ <;> simp [h, copyOpt]
      rw [copyN_ok l]; rfl
  have hlb : copyOpt d.lb n.nV = .ok d.lb := by
    rcases hd.lb with h | ⟨v, h, l⟩ <;> simp [h, copyOpt]
    rw [copyN_ok l]; rfl
  have hub : copyOpt d.ub n.nV = .ok d.ub := by
    rcases hd.ub with h | ⟨v, h, l⟩ <;> simp [h, copyOpt]
    rw [copyN_ok l]; rfl
  have hq : ∀ sub, (∀ Q A, sub ≠ .osqp Q A) → off = n.nV → qpoasesSolve e d s init sub n.nV n.nA = .ok r →
      d.sub = some sub → ∃ w, QpOk sub (e.qp s.calls (qpReq d s init sub g lA uA)) ∧
      r.2 = { s with
        work := w
        calls := s.calls + 1
        qpIter := r.2.qpIter
        qpExit := r.2.qpExit
        ans := some (e.qp s.calls (qpReq d s init sub g lA uA)) } := by
    intro sub hno ho h hsub
    subst ho
    simp only [qpoasesSolve, hg, hlA, huA, deref_some, ok_bind, copyN_ok lg, copyN_ok llA, copyN_ok luA, hlb, hub, hx0,
      hy0] at h
    have hrq : (⟨sub, init, g, lA, uA, if init then s.xk else none, if init then s.yk else none, d.lb, d.ub,
      d.opts.qpoases, d.opts.osqp⟩ : Req α) = qpReq d s init sub g lA uA := rfl
    rw [hrq] at h
    injection h with h
    generalize e.qp s.calls (qpReq d s init sub g lA uA) = a at h ⊢
    subst h
    refine ⟨s.work, ?_, by simp [hg]⟩
    by_cases h0 : a.ret ≠ 0
    · rw [if_pos h0] at hr
      cases hr
    · cases sub with
      | osqp Q A => exact absurd rfl (hno Q A)
      | dense => exact not_not.mp h0
      | sparse => exact not_not.mp h0
  rcases hd.sub with ⟨Q, A, hsub, ho⟩ | ⟨Q, A, hsub, ho⟩ | ⟨Q, A, hsub, hQn, hAm, ho, hl, hu⟩
  · simp only [subSolve, hsub, initd_some, ok_bind] at h
    obtain ⟨w, h1, h2⟩ := hq _ (by simp) ho h hsub
    exact ⟨_, lA, uA, w, hsub, hlA, huA, h1, h2⟩
  · simp only [subSolve, hsub, initd_some, ok_bind] at h
    obtain ⟨w, h1, h2⟩ := hq _ (by simp) ho h hsub
    exact ⟨_, lA, uA, w, hsub, hlA, huA, h1, h2⟩
  · subst ho
    rw [Nat.zero_add] at hy0
    simp only [subSolve, hsub, initd_some, ok_bind] at h
    unfold osqpSolve at h
    rw [if_neg (by simp [hl, hu])] at h
    simp only [hg, hlA, huA, deref_some, ok_bind, hQn, hAm, copyN_ok lg, copyN_ok llA, copyN_ok luA, hx0,
      hy0] at h
    have hrq : (⟨.osqp Q A, init, g, lA, uA, if init then s.xk else none, if init then s.yk else none, none, none,
      d.opts.qpoases, d.opts.osqp⟩ : Req α) = qpReq d s init (.osqp Q A) g lA uA := by rw [qpReq, hl, hu]
    rw [hrq] at h
    refine ⟨_, lA, uA, r.2.work, hsub, hlA, huA, ?_⟩
    generalize e.qp s.calls (qpReq d s init (.osqp Q A) g lA uA) = a at h ⊢
    obtain ⟨_, ⟨h1, _⟩ | ⟨h1, _⟩ | ⟨h1, _⟩ | ⟨_, h1, h2⟩⟩ := osqpFinish_inv h
    · rw [h1] at hr; cases hr
    · rw [h1] at hr; cases hr
    · rw [h1] at hr; cases hr
    · rw [h1] at hr
      by_cases h0 : a.ret ≠ 0 ∨ a.status ≤ 0
      · rw [if_pos h0] at hr
        cases hr
      · push Not at h0
        refine ⟨⟨h0.1, by omega⟩, ?_⟩
        rw [h2]

theorem perturbLoop_eq {k m : Nat} {x : List α} (hx : x.length = m) : perturbLoop e k m x =
    .ok (tab m fun i => gt x i +. ofInt ((e.rnd (k + i) % 3 : Nat) - 1) *. eps) := by
  unfold perturbLoop
  apply loop_fill (fun i => gt x i +. ofInt ((e.rnd (k + i) % 3 : Nat) - 1) *. eps) _ _ _ hx
  intro i hi
  rw [rd_ok (by simp; omega), ok_bind, wr_ok (by simp; omega), gt_pre _ _ _ (by omega), if_neg (by omega)]

end

/-! ## subproblems -/

section
variable {K : Type} [Field K] [LinearOrder K] {n : Dims} {d : Data (Ext K)} {P : Prob K n} {off : Nat}
  {s : St (Ext K)} {r a : K} {b : Bool} {x p : Fin n.nV → K} {y : Fin (off + n.nA) → K} {e : Env (Ext K)}

/-- the QP solver answers successful calls with finite vectors -/
def FinAns (e : Env (Ext K)) : Prop :=
  ∀ k q, QpOk q.sub (e.qp k q) → ∀ i, (∃ v, (e.qp k q).x i = fin v) ∧ ∃ v, (e.qp k q).y i = fin v

/-- the vectors `v`, `y` are what the wrapper `sub` hands out for the answer `q` -/
def AnsIs (sub : Sub (Ext K)) (q : Resp (Ext K)) (v : Fin n.nV → K) (y : Fin (off + n.nA) → K) : Prop :=
  (∀ i : Fin n.nV, q.x i = fin (v i)) ∧
  match sub with
  | .osqp _ _ => ∀ i : Fin (off + n.nA), -. q.y i = fin (y i)
  | _ => ∀ i : Fin (off + n.nA), q.y i = fin (y i)

theorem getSolution_x (hd : DataOK d n off) {q : Resp (Ext K)} (ha : s.ans = some q) (hx : Has s.xnew n.nV)
    (hy : Has s.yk (off + n.nA)) (hf : ∀ i, (∃ v, q.x i = fin v) ∧ ∃ v, q.y i = fin v) :
    ∃ (v : Fin n.nV → K) (y : Fin (off + n.nA) → K), getSolution d s = .ok (ev v, ev y) ∧
      ∀ sub, d.sub = some sub → AnsIs sub q v y := by
  obtain ⟨xn, hx, lx⟩ := hx
  obtain ⟨yk, hy, ly⟩ := hy
  have h1 : tab n.nV q.x = ev fun i : Fin n.nV => (hf i).1.choose := tab_eq_ev fun i => (hf i).1.choose_spec
  have h2 : tab (off + n.nA) q.y = ev fun i : Fin (off + n.nA) => (hf i).2.choose :=
    tab_eq_ev fun i => (hf i).2.choose_spec
  have h3 : tab (off + n.nA) (fun i => -. q.y i) = ev fun i : Fin (off + n.nA) => -(hf i).2.choose :=
    tab_eq_ev fun i => by rw [← fin_neg, ← (hf i).2.choose_spec]
  rcases hd.sub with ⟨Q, A, hsub, ho⟩ | ⟨Q, A, hsub, ho⟩ | ⟨Q, A, hsub, hQn, hAm, ho, hlb, hub⟩
  · subst ho
    refine ⟨fun i => (hf i).1.choose, fun i => (hf i).2.choose, ?_, fun sub hs => ?_⟩
    rotate_left
    · rw [hsub] at hs
      injection hs with hs
      subst hs
      exact ⟨fun i => (hf i).1.choose_spec, fun i => (hf i).2.choose_spec⟩
    simp only [getSolution, hsub, ha, hx, hy, initd_some, deref_some, ok_bind, fillAns_ok _ lx,
      fillAns_ok _ ly, h1, h2]
  · subst ho
    refine ⟨fun i => (hf i).1.choose, fun i => (hf i).2.choose, ?_, fun sub hs => ?_⟩
    rotate_left
    · rw [hsub] at hs
      injection hs with hs
      subst hs
      exact ⟨fun i => (hf i).1.choose_spec, fun i => (hf i).2.choose_spec⟩
    simp only [getSolution, hsub, ha, hx, hy, initd_some, deref_some, ok_bind, fillAns_ok _ lx,
      fillAns_ok _ ly, h1, h2]
  · refine ⟨fun i => (hf i).1.choose, fun i => -(hf i).2.choose, ?_, fun sub hs => ?_⟩
    rotate_left
    · rw [hsub] at hs
      injection hs with hs
      subst hs
      exact ⟨fun i => (hf i).1.choose_spec, fun i => by rw [← fin_neg, ← (hf i).2.choose_spec]⟩
    have : A.m = off + n.nA := by omega
    simp only [getSolution, hsub, ha, hx, hy, initd_some, deref_some, ok_bind, hQn, this, fillAns_ok _ lx,
        fillAns_ok _ ly, h1, h3]

theorem takeSolution_x (hd : DataOK d n off) {q : Resp (Ext K)} (ha : s.ans = some q) (hx : Has s.xnew n.nV)
    (hy : Has s.yk (off + n.nA)) (hya : Has s.ykA n.nA) (hp : Has s.pk n.nV) (hxk : s.xk = some (ev x))
    (hf : ∀ i, (∃ v, q.x i = fin v) ∧ ∃ v, q.y i = fin v) :
    ∃ (v : Fin n.nV → K) (y : Fin (off + n.nA) → K), takeSolution d s = .ok { s with
      xnew := some (ev v)
      yk := some (ev y)
      ykA := some (ev (yLin y))
      pk := some (ev (v - x)) } ∧ ∀ sub, d.sub = some sub → AnsIs sub q v y := by
  obtain ⟨v, y, h1, h2⟩ := getSolution_x hd ha hx hy hf
  obtain ⟨ya, hya, lya⟩ := hya
  obtain ⟨p, hp, lp⟩ := hp
  refine ⟨v, y, ?_, h2⟩
  have h3 : tab n.nA (fun i => gt (ev y) (off + i)) = ev (yLin y) :=
    tab_eq_ev fun i => gt_ev' y (by have := i.2; omega)
  rw [takeSolution, hd.dims, initd_some, ok_bind, hd.boxOff, initd_some, ok_bind, h1, ok_bind, hya, deref_some,
    ok_bind, copy_loop_ok (by simp) lya, ok_bind, hxk, deref_some, ok_bind, hp, deref_some, ok_bind, one_fin, fin_neg,
    wva_buf _ _ _ _ lp, ok_bind, h3, one_smul, neg_one_smul, ← sub_eq_add_neg]

/-- a successful subproblem call with finite answers -/
theorem solveQP_x (hd : DataOK d n off) {init : Bool} {q : RV × St (Ext K)} (h : solveQP e d s init = .ok q)
    (hq : q.1 = .successfulReturn) (he : FinAns e) {g : List (Ext K)} (hg : s.gk = some g) (lg : g.length = n.nV)
    (hxk : s.xk = some (ev x)) (hx : Has s.xnew n.nV)
    (hy : HasOpt s.yk (off + n.nA)) (hya : Has s.ykA n.nA) (hp : Has s.pk n.nV) :
    ∃ (v : Fin n.nV → K) (y : Fin (off + n.nA) → K) (w : Work) (sub : Sub (Ext K)) (lA uA : List (Ext K)),
      d.sub = some sub ∧ d.lbA = some lA ∧ d.ubA = some uA ∧
      QpOk sub (e.qp s.calls (qpReq d s init sub g lA uA)) ∧
      AnsIs sub (e.qp s.calls (qpReq d s init sub g lA uA)) v y ∧ q.2 = { s with
      qpIter := q.2.qpIter
      qpExit := q.2.qpExit
      work := w
      calls := s.calls + 1
      ans := q.2.ans
      stats := q.2.stats
      xnew := some (ev v)
      yk := some (ev y)
      ykA := some (ev (yLin y))
      pk := some (ev (v - x)) } := by
  simp only [solveQP, bind_eq_ok] at h
  obtain ⟨t, ht, u, hu, h⟩ := h
  by_cases h0 : t.1 = .successfulReturn
  · rw [if_neg (by simp [h0])] at h
    obtain ⟨sub, lA, uA, w, h1, h2, h3, h4, h5⟩ := subSolve_req hd ht h0 hg lg (Or.inr ⟨_, hxk, by simp⟩) hy
    have hf := he s.calls (qpReq d s init sub g lA uA) h4
    generalize hA : e.qp s.calls (qpReq d s init sub g lA uA) = A at h4 h5 hf ⊢
    obtain ⟨it, ex, st, x', y', hit, hex, hst, hu'⟩ := afterSolve_inv hu
    simp only [afterSolve, hit, hex, initd_some, ok_bind, hst, hd.dims, hd.nDuals] at hu
    injection hu with hu
    have ux : u.xk = some (ev x) := by
      rw [← hu]
      simp only
      rw [h5]
      simp [hxk]
    have uy : Has u.yk (off + n.nA) := by
      rw [← hu]
      simp only
      rw [h5]
      rcases hy with hy | ⟨v, hy, l⟩
      · exact ⟨_, rfl, by simp [hy, Env.alloc]⟩
      · exact ⟨_, rfl, by simpa [hy] using l⟩
    have ua : u.ans = some A := by rw [hu']; simp only; rw [h5]
    have uxn : u.xnew = s.xnew := by rw [hu']; simp only; rw [h5]
    have uya : u.ykA = s.ykA := by rw [hu']; simp only; rw [h5]
    have up : u.pk = s.pk := by rw [hu']; simp only; rw [h5]
    obtain ⟨v, y, h6, h7⟩ := takeSolution_x hd ua (uxn ▸ hx) uy (uya ▸ hya) (up ▸ hp) ux hf
    rw [h6, ok_bind] at h
    injection h with h
    refine ⟨v, y, w, sub, lA, uA, h1, h2, h3, by rw [hA]; exact h4, by rw [hA]; exact h7 sub h1, ?_⟩
    rw [← h]
    simp only
    rw [hu']
    simp only
    rw [h5]
    have : x' = s.xk := by rw [hxk, ← ux, hu']
    rw [this]
  · rw [if_pos (by simpa using h0)] at h
    injection h with h
    rw [← h] at hq
    exact absurd hq h0

/-! ## perturbation -/

/-- the perturbed point; `k` random numbers have been used before -/
def perturbed (e : Env (Ext K)) (k : Nat) (x : Fin n.nV → K) : Fin n.nV → K := fun i =>
  x i + (((e.rnd (k + i) % 3 : Nat) : Int) - 1 : Int) * (2221 / 10 ^ 19)

theorem perturbIf_x (hd : d.dims = some n) (hx : s.xk = some (ev x)) {s' : St (Ext K)}
    (h : perturbIf e d s = .ok s') : ∃ x', s' = { s with
      xk := some (ev x')
      rnd := if d.opts.perturb then s.rnd + n.nV else s.rnd } ∧
      x' = if d.opts.perturb then perturbed e s.rnd x else x := by
  unfold perturbIf at h
  split at h
  · rename_i hp
    refine ⟨_, ?_, rfl⟩
    rw [if_pos hp, if_pos hp]
    simp only [perturbStep, hd, hx, initd_some, deref_some, ok_bind, perturbLoop_eq (e := e) (k := s.rnd) (ev_length x)] at h
    injection h with h
    rw [← h]
    congr 2
    apply tab_eq_ev
    intro i
    rw [gt_ev, ofInt_fin, eps, lit_fin, fin_mul, fin_add, perturbed]
    norm_num
  · rename_i hp
    refine ⟨_, ?_, rfl⟩
    rw [if_neg hp, if_neg hp, ← hx]
    injection h with h
    exact h.symm

/-! ## a pass -/

/-- the second flag of `XSt` tells whether the outer counter is positive -/
def OutB (s : St (Ext K)) (b : Bool) : Prop := ∃ k : Int, s.outer = some k ∧ 0 ≤ k ∧ (b = true ↔ 0 < k)

theorem advance_x (hd : DataIs d n P off) (hs : XSt d n P off s r b x p a y) {s' : St (Ext K)}
    (h : advance d s = .ok s') : XSt d n P off s' r b (x + a • p) p a y ∧
      s'.statk = some (ev (P.stat d.sparse r b (x + a • p) y)) ∧ s'.outer = s.outer ∧ s'.calls = s.calls := by
  obtain ⟨x', A, B, C, q, l, st, t, i, _, _, _, ⟨u, hu, hq⟩, _, _, _, hs'⟩ := advance_inv h
  rw [updateStep_x hd hs] at hu
  injection hu with hu
  subst hu
  obtain ⟨c, w, hw, lc, lw⟩ := updateStationarity_x hd (hs.step (x + a • p))
  rw [hw] at hq
  injection hq with hq
  subst hq
  subst hs'
  refine ⟨?_, rfl, rfl, rfl⟩
  exact ⟨hs.rho, hs.Qk.congr rfl rfl rfl, hs.gTilde, rfl, hs.pk, hs.alpha, hs.yk, hs.ykA, hs.gk, hs.xnew, hs.lkTmp,
    ⟨_, rfl, by simp⟩, lc, lw⟩

theorem bump_out {s' : St (Ext K)} (hb : OutB s b) (h : bump d s = .ok s') : OutB s' true := by
  obtain ⟨_, _, _, _, t, _, ht, _, rfl⟩ := bump_inv h
  obtain ⟨k, hk, h0, _⟩ := hb
  rw [ht] at hk
  injection hk with hk
  exact ⟨t + 1, rfl, by omega, by simp; omega⟩

/-- how a part of a pass changes the penalty parameter -/
def Grow (f r : K) (b : Bool) (r' : K) (b' : Bool) : Prop := (r' = r ∧ b' = b) ∨ ∃ k : Nat, 0 < k ∧ r' = r * f ^ k ∧ b' = true

theorem Grow.trans {f r r' r'' : K} {b b' b'' : Bool} (h : Grow f r b r' b') (h' : Grow f r' b' r'' b'') :
    Grow f r b r'' b'' := by
  rcases h with ⟨rfl, rfl⟩ | ⟨k, hk, rfl, rfl⟩
  · exact h'
  · rcases h' with ⟨rfl, rfl⟩ | ⟨k', hk', rfl, rfl⟩
    · exact Or.inr ⟨k, hk, rfl, rfl⟩
    · exact Or.inr ⟨k + k', by omega, by rw [pow_add, mul_assoc], rfl⟩

theorem dynamic_x (hd : DataIs d n P off) {f : K} (hf : d.opts.factor = fin f) (f0 : f ≠ 0)
    (hs : XSt d n P off s r b x p a y) (hb : OutB s b) {s' : St (Ext K)} (h : dynamicPenalty d s = .ok s') :
    ∃ r' b', XSt d n P off s' r' b' x p a y ∧ OutB s' b' ∧ Grow f r b r' b' ∧ s'.calls = s.calls := by
  obtain ⟨q, hh, _, hq2, ⟨_, rfl⟩ | ⟨_, h⟩⟩ := dynamicPenalty_inv h
  · rw [hq2]
    exact ⟨r, b, { hs with Qk := hs.Qk.congr rfl rfl rfl }, hb, Or.inl ⟨rfl, rfl⟩, rfl⟩
  · rw [hq2] at h
    obtain ⟨h1, _, h3, _⟩ := bump_x hd hf f0 (s := { s with hist := hh }) { hs with Qk := hs.Qk.congr rfl rfl rfl } h
    exact ⟨r * f, true, h1, bump_out (s := { s with hist := hh }) hb h, Or.inr ⟨1, by omega, by rw [pow_one], rfl⟩, h3⟩

theorem lin_x (hd : DataIs d n P off) (hs : XSt d n P off s r b x p a y) {s' : St (Ext K)}
    (h : updateLinearization d s = .ok s') : s' = { s with gk := some (ev (r • (P.C *ᵥ x) + P.gT b r)) } ∧
    XSt d n P off s' r b x p a y := by
  rw [updateLinearization_x hd hs.rho hs.xk hs.gTilde hs.gk] at h
  injection h with h
  subst h
  exact ⟨rfl, { hs with Qk := hs.Qk.congr rfl rfl rfl, gk := ⟨_, rfl, by simp⟩ }⟩

/-- the last part of a pass -/
theorem nextStep_x (h0 : DataOK d n off) (hd : DataIs d n P off) (he : FinAns e)
    (hs : XSt d n P off s r b x p a y) {s' : St (Ext K)} (h : nextStep e d s = .ok (.inl s')) :
    ∃ (x' v : Fin n.nV → K) (y' : Fin (off + n.nA) → K) (sub : Sub (Ext K)) (lA uA : List (Ext K)),
      d.sub = some sub ∧ d.lbA = some lA ∧ d.ubA = some uA ∧
      (x' = if d.opts.perturb then perturbed e s.rnd x else x) ∧
      XSt d n P off s' r b x' (v - x) (alphaOf ((v - x) ⬝ᵥ ((P.Q + r • P.C) *ᵥ (v - x)))
        ((v - x) ⬝ᵥ (tr d.sparse (P.Q + r • P.C) *ᵥ x' + P.gT b r))) y' ∧
      QpOk sub (e.qp s.calls ⟨sub, false, ev (r • (P.C *ᵥ x) + P.gT b r), lA, uA, none, none, d.lb, d.ub,
        d.opts.qpoases, d.opts.osqp⟩) ∧
      AnsIs sub (e.qp s.calls ⟨sub, false, ev (r • (P.C *ᵥ x) + P.gT b r), lA, uA, none, none, d.lb, d.ub,
        d.opts.qpoases, d.opts.osqp⟩) v y' ∧ s'.outer = s.outer ∧ s'.calls = s.calls + 1 := by
  simp only [nextStep, bind_eq_ok] at h
  obtain ⟨s1, h1, q, hq, h⟩ := h
  obtain ⟨rfl, hs1⟩ := lin_x hd hs h1
  by_cases hne : q.1 = .successfulReturn
  · rw [if_neg (by simp [hne])] at h
    simp only [bind_eq_ok] at h
    obtain ⟨s2, h2, s3, h3, h⟩ := h
    obtain ⟨v, y', w, sub, lA, uA, g1, g2, g3, g4, g5, g6⟩ := solveQP_x h0 hq hne he rfl (by simp) hs1.xk hs1.xnew
      (Or.inr ⟨_, hs1.yk, by simp⟩) ⟨_, hs1.ykA, by simp⟩ ⟨_, hs1.pk, by simp⟩
    have hs2 : XSt d n P off q.2 r b x (v - x) a y' := by
      rw [g6]
      exact ⟨hs1.rho, hs1.Qk.congr rfl rfl rfl, hs1.gTilde, hs1.xk, rfl, hs1.alpha, rfl, rfl, hs1.gk, ⟨_, rfl, by simp⟩,
        hs1.lkTmp, hs1.statk, hs1.cstat, hs1.bstat⟩
    have hr : q.2.rnd = s.rnd := by rw [g6]
    have hout : q.2.outer = s.outer := by rw [g6]
    have hcal : q.2.calls = s.calls + 1 := by rw [g6]
    obtain ⟨x', h4, h5⟩ := perturbIf_x hd.dims hs2.xk h2
    rw [hr] at h5
    have hs3 : XSt d n P off s2 r b x' (v - x) a y' := by
      rw [h4]
      exact { hs2 with Qk := hs2.Qk.congr rfl rfl rfl, xk := rfl }
    obtain ⟨lt, h6, llt⟩ := getOptimalStepLength_x hd hs3
    rw [h6] at h3
    injection h3 with h3
    injection h with h
    injection h with h
    subst h3 h
    refine ⟨x', v, y', sub, lA, uA, g1, g2, g3, h5, ?_, g4, g5, ?_, ?_⟩
    · exact { hs3 with Qk := hs3.Qk.congr rfl rfl rfl, alpha := rfl, lkTmp := llt }
    · simp only
      rw [h4]
      exact hout
    · simp only
      rw [h4]
      exact hcal
  · rw [if_pos (by simpa using hne)] at h
    cases h

/-- a pass that does not end the run -/
theorem pass_x (h0 : DataOK d n off) (hd : DataIs d n P off) (he : FinAns e) {f : K} (hf : d.opts.factor = fin f)
    (f0 : f ≠ 0) (hs : XSt d n P off s r b x p a y) (hb : OutB s b) {s' : St (Ext K)} (h : pass e d s = .ok (.inl s')) :
    ∃ (r' : K) (b' : Bool) (c k : Nat) (x' v : Fin n.nV → K) (y' : Fin (off + n.nA) → K) (sub : Sub (Ext K)) (lA uA : List (Ext K)),
      Grow f r b r' b' ∧ OutB s' b' ∧
      d.sub = some sub ∧ d.lbA = some lA ∧ d.ubA = some uA ∧
      (x' = if d.opts.perturb then perturbed e k (x + a • p) else x + a • p) ∧
      XSt d n P off s' r' b' x' (v - (x + a • p)) (alphaOf ((v - (x + a • p)) ⬝ᵥ ((P.Q + r' • P.C) *ᵥ (v - (x + a • p))))
        ((v - (x + a • p)) ⬝ᵥ (tr d.sparse (P.Q + r' • P.C) *ᵥ x' + P.gT b' r'))) y' ∧
      QpOk sub (e.qp c ⟨sub, false, ev (r' • (P.C *ᵥ (x + a • p)) + P.gT b' r'), lA, uA, none, none, d.lb, d.ub,
        d.opts.qpoases, d.opts.osqp⟩) ∧
      AnsIs sub (e.qp c ⟨sub, false, ev (r' • (P.C *ᵥ (x + a • p)) + P.gT b' r'), lA, uA, none, none, d.lb, d.ub,
        d.opts.qpoases, d.opts.osqp⟩) v y' ∧ c = s.calls ∧ s'.calls = c + 1 := by
  obtain ⟨s1, s2, s3, h1, h2, h3, ⟨_, _, _, _, ⟨⟩⟩ | ⟨s4, t, rho, h4, _, _, h5⟩⟩ := pass_inv h
  obtain ⟨g1, _, g2, g3⟩ := advance_x hd hs h1
  have b1 : OutB s1 b := by unfold OutB; rw [g2]; exact hb
  obtain ⟨r2, b2, g4, g5, g6, g7⟩ := dynamic_x hd hf f0 g1 b1 h2
  obtain ⟨hs3, g8⟩ := lin_x hd g4 h3
  have b3 : OutB s3 b2 := by unfold OutB; rw [hs3]; exact g5
  have c3 : s3.calls = s.calls := by rw [hs3]; exact g7.trans g3
  have key : ∃ r' b', XSt d n P off s4 r' b' (x + a • p) p a y ∧ OutB s4 b' ∧ Grow f r b r' b' ∧ s4.calls = s.calls := by
    rcases h4 with ⟨_, rfl⟩ | ⟨_, _, h4⟩
    · exact ⟨r2, b2, g8, b3, g6, c3⟩
    · obtain ⟨k1, _, k3, _⟩ := bump_x hd hf f0 g8 h4
      exact ⟨r2 * f, true, k1, bump_out b3 h4, g6.trans (Or.inr ⟨1, by omega, by rw [pow_one], rfl⟩), k3.trans c3⟩
  obtain ⟨r', b', k1, k2, k3, k4⟩ := key
  rcases h5 with ⟨_, ⟨⟩⟩ | ⟨_, _, ⟨⟩⟩ | ⟨_, _, h5⟩
  obtain ⟨x', v, y', sub, lA, uA, m1, m2, m3, m4, m5, m6, m7, m8, m9⟩ := nextStep_x h0 hd he k1 h5
  refine ⟨r', b', s4.calls, s4.rnd, x', v, y', sub, lA, uA, k3, ?_, m1, m2, m3, m4, m5, m6, m7, k4, m9⟩
  unfold OutB
  rw [m8]
  exact k2

end

end LCQ
