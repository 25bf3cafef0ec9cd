import Verif.Lemmas.ExactHead

/-!
# C20, C21, C24, C25: what success means

The theorems in exact arithmetic are about an object described by `Setup`; `Setup.dense` and `Setup.sparse` show that
loading a finite problem into a new object leads to such an object.
-/

set_option linter.unusedSectionVars false

namespace LCQ
open Scalar Ext
open scoped Matrix

section
variable {α : Type} [Scalar α]

/-- C20 (any arithmetic): after success the complementarity value at the returned point passes its test, and the
stationarity vector that passed its test is the one belonging to the returned point, the final penalised Hessian and the
final gradient; only `transformDuals` changed the multipliers afterwards. -/
theorem C20_any {e : Env α} {fuel : Nat} {o o' : Obj α} (h : runSolver e fuel o = .ok (some (.successfulReturn, o'))) :
    ∃ (v m : α) (st : List α) (u w w' : St α) (n : Dims),
      getPhi o'.d o'.s = .ok v ∧ (v <. o'.d.opts.complTol) = true ∧
      o'.d.dims = some n ∧ o'.s.statk = some st ∧ maxAbs st n.nV = .ok m ∧ (m <. o'.d.opts.statTol) = true ∧
      updateStationarity o'.d u = .ok w ∧ w.statk = some st ∧
      u.xk = o'.s.xk ∧ u.rho = o'.s.rho ∧ u.Qk = o'.s.Qk ∧ u.Qks = o'.s.Qks ∧ u.gTilde = o'.s.gTilde ∧
      u.ykA = o'.s.ykA ∧ w'.yk = u.yk ∧ w'.xk = u.xk ∧ w'.rho = u.rho ∧
      transformDuals e o'.d w' = .ok { w' with yk := o'.s.yk } := by
  obtain ⟨s, _, hp⟩ := run_last h
  obtain ⟨s1, s2, s3, h1, h2, h3, ⟨hst, hco, q, hq, hqq⟩ | ⟨s4, t, rho, h4, _, _, h5⟩⟩ := pass_inv hp
  · injection hqq with hqq
    subst hqq
    obtain ⟨hh, gk, h3e⟩ := no_update_before_success h2 h3 hco
    obtain ⟨x, A, B, C, p, l, ss, t, i, _, _, _, ⟨u, hu, hu2⟩, hpe, _, _, hs1⟩ := advance_inv h1
    obtain ⟨x2, hx2⟩ := updateStep_inv hu
    obtain ⟨A', B', C', hp2⟩ := updateStationarity_inv hu2
    have f1 : u.xk = s3.xk ∧ u.rho = s3.rho ∧ u.Qk = s3.Qk ∧ u.Qks = s3.Qks ∧ u.gTilde = s3.gTilde ∧ u.ykA = s3.ykA ∧
        u.yk = s3.yk ∧ p.statk = s3.statk := by
      rw [h3e, hs1]
      dsimp only
      rw [hp2]
      exact ⟨rfl, rfl, rfl, rfl, rfl, rfl, rfl, rfl⟩
    clear h3e hs1 hp2 hpe hx2
    obtain ⟨y, ta, _, _, hq2⟩ := accept_inv hq
    simp only [accept, bind_eq_ok, initd_eq_ok] at hq
    obtain ⟨a1, ha1, a2, ha2, t', _, hq⟩ := hq
    obtain ⟨y', hy'⟩ := transformDuals_inv ha1
    obtain ⟨t2, _, ht2⟩ := determine_inv ha2
    injection hq with hq
    injection hq with _ hq
    dsimp only at hq2
    have f2 : o'.s.xk = s3.xk ∧ o'.s.rho = s3.rho ∧ o'.s.Qk = s3.Qk ∧ o'.s.Qks = s3.Qks ∧ o'.s.gTilde = s3.gTilde ∧
        o'.s.ykA = s3.ykA ∧ o'.s.statk = s3.statk := by
      rw [hq2]
      exact ⟨rfl, rfl, rfl, rfl, rfl, rfl, rfl⟩
    have f3 : o'.s.yk = some y' := by
      rw [← hq, ht2, hy']
      split <;> rfl
    obtain ⟨g1, g2, g3, g4, g5, g6, g7⟩ := f2
    obtain ⟨k1, k2, k3, k4, k5, k6, k7, k8⟩ := f1
    simp only [stationarityCheck, bind_eq_ok, initd_eq_ok, deref_eq_ok] at hst
    obtain ⟨n, hn, st, hstk, m, hm, hlt⟩ := hst
    injection hlt with hlt
    simp only [complementarityCheck, bind_eq_ok] at hco
    obtain ⟨v, hv, hvt⟩ := hco
    injection hvt with hvt
    refine ⟨v, m, st, u, p, s3, n, ?_, hvt, hn, ?_, hm, hlt, hu2, ?_, ?_, ?_, ?_, ?_, ?_, ?_, ?_, ?_, ?_, ?_⟩
    · rw [← hv]
      unfold getPhi
      rw [g1]
    · rw [g7]; exact hstk
    · rw [k8]; exact hstk
    · rw [k1, g1]
    · rw [k2, g2]
    · rw [k3, g3]
    · rw [k4, g4]
    · rw [k5, g5]
    · rw [k6, g6]
    · exact k7.symm
    · exact k1.symm
    · exact k2.symm
    · rw [ha1, hy', f3]
  · exfalso
    rcases h5 with ⟨_, h5⟩ | ⟨_, _, h5⟩ | ⟨_, _, h5⟩
    · injection h5 with h5; injection h5 with h5 _; cases h5
    · injection h5 with h5; injection h5 with h5 _; cases h5
    · obtain ⟨gk, q', _, ⟨hne, h6⟩ | ⟨_, _, _, _, _, ⟨⟩⟩⟩ := nextStep_inv h5
      injection h6 with h6
      injection h6 with h6 _
      exact hne h6.symm

/-- the dense penalised Hessian is `1*Q + rho*C`, entry by entry -/
def DenseQk (d : Data α) (n : Dims) (s : St α) : Prop :=
  ∃ rho Q C D, s.rho = some rho ∧ d.Q = some Q ∧ d.C = some C ∧ s.Qk = some D ∧
    Q.length = n.nV * n.nV ∧ C.length = n.nV * n.nV ∧ D.length = n.nV * n.nV ∧
    ∀ (t : Nat) (a b : α), Q[t]? = some a → C[t]? = some b → D[t]? = some (one *. a +. rho *. b)

theorem MatOK.dense {sp : Bool} {B : Option (List α)} {S : Option (CSC α)} {m n : Nat} (h : MatOK sp B S m n)
    (hsp : sp = false) : Has B (m * n) := by
  rcases h.cases with ⟨h, _⟩ | ⟨_, h⟩
  · rw [hsp] at h; cases h
  · exact h

theorem setQk_dense {d : Data α} {s s' : St α} {n : Dims} {off : Nat} (hd : DataOK d n off) (hsp : d.sparse = false)
    (hqk : Has s.Qk (n.nV * n.nV)) (h : setQk d s = .ok s') : DenseQk d n s' := by
  obtain ⟨Q, hQ, lQ⟩ := MatOK.dense hd.Q hsp
  obtain ⟨C, hC, lC⟩ := MatOK.dense hd.C hsp
  obtain ⟨qk, hqk, lqk⟩ := hqk
  simp only [setQk, hd.dims, hsp, hQ, hC, hqk, initd_some, deref_some, ok_bind, bind_eq_ok, initd_eq_ok, Bool.false_eq_true,
    if_false] at h
  obtain ⟨rho, hr, D', hD', h⟩ := h
  obtain ⟨D, hD, lD, hDt⟩ := C07_weightedAdd one rho (.buf Q) (.buf C) qk n.nV n.nV lQ lC lqk
  rw [hD] at hD'
  injection hD' with hD'
  subst hD'
  injection h with h
  subst h
  exact ⟨rho, Q, C, D, hr, hQ, hC, rfl, lQ, lC, lD, hDt⟩

theorem bump_dense {d : Data α} {s s' : St α} {n : Dims} {off : Nat} (hd : DataOK d n off) (hsp : d.sparse = false)
    (hs : DenseQk d n s) (h : bump d s = .ok s') : DenseQk d n s' := by
  obtain ⟨rho, Q, C, qk, hr, hQ, hC, hqk, lQ, lC, lqk, _⟩ := hs
  simp only [bump, updatePenalty, bind_eq_ok, initd_eq_ok] at h
  obtain ⟨s2, ⟨r, _, s1, h1, h2⟩, s3, h3, h⟩ := h
  obtain ⟨D, hD, lD, hDt⟩ := C07_weightedAdd one (r *. d.opts.factor) (.buf Q) (.buf C) qk n.nV n.nV lQ lC lqk
  simp only [updateQk, hd.dims, hsp, hQ, hC, hqk, initd_some, deref_some, ok_bind, Bool.false_eq_true, if_false, hD] at h1
  injection h1 with h1
  subst h1
  obtain ⟨c, rfl⟩ := updateGTilde_inv h2
  obtain ⟨t, st, ht, htm, hst, rfl⟩ := updateOuterIter_inv h3
  injection h with h
  subst h
  exact ⟨_, Q, C, D, rfl, hQ, hC, rfl, lQ, lC, lD, hDt⟩

/-- C24 (any arithmetic): in dense mode, at every head of the main loop the penalised Hessian is `1*Q + rho*C`. -/
theorem C24_dense {e : Env α} {o : Obj α} {n : Dims} {d : Data α} {s : St α} (hR : Ready o n) (hsp : o.d.sparse = false)
    (h : AtHead e o d s) : DenseQk d n s := by
  obtain ⟨s0, ⟨i, hi, hi1, rfl, hf⟩, h⟩ := h
  obtain ⟨i', hi', hall⟩ := initializeSolver_total (e := e) hR
  rw [hi] at hi'
  injection hi' with hi'
  subst hi'
  obtain ⟨off, hd, _, _, hqk, _⟩ := hall hi1
  obtain ⟨nd, bo, l, u, sub, y, w, gt', pc, gp, hshape⟩ := initializeSolver_ok hi hi1
  have hsp : i.2.d.sparse = false := by rw [hshape]; exact hsp
  induction h with
  | start =>
    simp only [firstStep, bind_eq_ok] at hf
    obtain ⟨s1, h1, q, hq, hf⟩ := hf
    obtain ⟨gk, rfl⟩ := firstGradient_inv h1
    obtain ⟨_, _, _, _, _, _, _, _, _, _, _, _, _, _, _, _, _, _, _, _, _, hq2⟩ := solveQP_inv hq
    split at hf
    · cases hf
    · simp only [bind_eq_ok, initd_eq_ok] at hf
      obtain ⟨s3, h3, r, hr, hf⟩ := hf
      have := setQk_dense hd hsp (by rw [hq2]; exact hqk hsp) h3
      injection hf with hf
      injection hf with hf
      subst hf
      exact this
  | pass _ hp ih =>
    obtain ⟨s1, s2, s3, h1, h2, h3, ⟨_, _, _, _, ⟨⟩⟩ | ⟨s4, t, rho, h4, _, _, h5⟩⟩ := pass_inv hp
    have k1 : DenseQk i.2.d n s1 := by
      obtain ⟨x, A, B, C, p, l, ss, t, j, _, _, _, _, hpe, _, _, hs1⟩ := advance_inv h1
      rw [hs1, hpe]
      exact ih
    have k2 : DenseQk i.2.d n s2 := by
      obtain ⟨q, hh, _, hq2, ⟨_, rfl⟩ | ⟨_, h⟩⟩ := dynamicPenalty_inv h2
      · rw [hq2]; exact k1
      · exact bump_dense hd hsp (by rw [hq2]; exact k1) h
    have k3 : DenseQk i.2.d n s3 := by
      obtain ⟨gk, rfl⟩ := updateLinearization_inv h3
      exact k2
    have k4 : DenseQk i.2.d n s4 := by
      rcases h4 with ⟨_, rfl⟩ | ⟨_, _, h4⟩
      · exact k3
      · exact bump_dense hd hsp k3 h4
    rcases h5 with ⟨_, ⟨⟩⟩ | ⟨_, _, ⟨⟩⟩ | ⟨_, _, h5⟩
    obtain ⟨gk, q, hq, ⟨_, ⟨⟩⟩ | ⟨_, _, _, _, _, h6⟩⟩ := nextStep_inv h5
    obtain ⟨_, _, _, _, _, _, _, _, _, _, _, _, _, _, _, _, _, _, _, _, _, hq2⟩ := solveQP_inv hq
    injection h6 with h6
    rw [h6, hq2]
    exact k4

end

variable {K : Type} [Field K] [LinearOrder K] [IsStrictOrderedRing K] {n : Dims} {P : Prob K n}
  {e : Env (Ext K)} {o : Obj (Ext K)} {x0 : Fin n.nV → K} {r0 f : K} {d : Data (Ext K)}

/-- C25: the complementarity value is `(Lx - lbL)'(Rx - lbR)`, at every point. -/
theorem C25_phi (hS : Setup e o n P x0 r0 f) {s : St (Ext K)} (h : AtHead e o d s) (t : St (Ext K)) (x : Fin n.nV → K)
    (hx : t.xk = some (ev x)) : getPhi d t = .ok (fin (P.phi x)) := by
  obtain ⟨off, _, hd, _⟩ := hS.head h
  exact getPhi_x hd hx

/-- C24: at every head of the main loop the penalised Hessian is `Q + rho * C`. -/
theorem C24_head (hS : Setup e o n P x0 r0 f) {s : St (Ext K)} (h : AtHead e o d s) :
    ∃ r, s.rho = some (fin r) ∧ MatIs d.sparse s.Qk s.Qks n.nV n.nV (P.Q + r • P.C) := by
  obtain ⟨off, _, hd, _, _, r, b, x, p, a, y, hs, _⟩ := hS.head h
  exact ⟨r, hs.rho, hs.Qk.mat hd⟩

/-- C24: so it is after any further number of penalty updates. -/
theorem C24_bump (hS : Setup e o n P x0 r0 f) {s s' : St (Ext K)} (h : AtHead e o d s) {k : Nat}
    (hk : loop k (fun _ s => bump d s) s = .ok s') :
    ∃ r, s.rho = some (fin r) ∧ s'.rho = some (fin (r * f ^ k)) ∧
      MatIs d.sparse s'.Qk s'.Qks n.nV n.nV (P.Q + (r * f ^ k) • P.C) := by
  obtain ⟨off, _, hd, ho, _, r, b, x, p, a, y, hs, _⟩ := hS.head h
  refine ⟨r, hs.rho, ?_⟩
  suffices ∃ b, XSt d n P off s' (r * f ^ k) b x p a y by
    obtain ⟨b, h⟩ := this
    exact ⟨h.rho, h.Qk.mat hd⟩
  induction k generalizing s' with
  | zero =>
    injection hk with hk
    subst hk
    exact ⟨b, by simpa using hs⟩
  | succ k ih =>
    simp only [loop, bind_eq_ok] at hk
    obtain ⟨t, ht, hk⟩ := hk
    obtain ⟨b, hb⟩ := ih ht
    have := (bump_x hd (by rw [ho]; exact hS.factor) hS.f0 hb hk).1
    rw [pow_succ, ← mul_assoc]
    exact ⟨true, this⟩

/-- what the stationarity test of the last pass tested -/
theorem success_x (hS : Setup e o n P x0 r0 f) {ts tc : K} (hts : o.d.opts.statTol = fin ts)
    (htc : o.d.opts.complTol = fin tc) {fuel : Nat} {o' : Obj (Ext K)}
    (h : runSolver e fuel o = .ok (some (.successfulReturn, o'))) :
    ∃ (off : Nat) (r : K) (b : Bool) (x : Fin n.nV → K) (y : Fin (off + n.nA) → K),
      DataOK o'.d n off ∧ o'.d.sparse = o.d.sparse ∧ OutB o'.s b ∧
      o'.s.xk = some (ev x) ∧ o'.s.rho = some (fin r) ∧ o'.s.ykA = some (ev (yLin y)) ∧
      o'.s.yk = some (ev (P.shifted r x y)) ∧ P.phi x < tc ∧
      ∀ i, |P.stat o.d.sparse r b x y i| < ts := by
  obtain ⟨s, hs, hp⟩ := run_last h
  obtain ⟨off, h0, hd, ho, hsp, r, b, x, p, a, y, hx, hb⟩ := hS.head hs
  obtain ⟨h1, h2, h3, h4, h5, h6, h7, _⟩ :=
    pass_success hd hx hb (by rw [ho]; exact hts) (by rw [ho]; exact htc) hp rfl
  rw [hsp] at h2
  exact ⟨off, r, b, _, y, h0, hsp, h3, h5, h4, h6, h7, h1, h2⟩

theorem stat_eq (r : K) (b : Bool) (x : Fin n.nV → K) {off : Nat} (y : Fin (off + n.nA) → K) {sp : Bool}
    (hQ : sp = true → P.Qᵀ = P.Q) :
    P.stat sp r b x y = P.penResidual r x y - if b then 0 else r • P.gPhi := by
  have h1 : tr sp (P.Q + r • P.C) = P.Q + r • P.C := by
    cases sp
    · rfl
    · apply tr_symm
      rw [Matrix.transpose_add, Matrix.transpose_smul, hQ rfl, P.C_symm]
  rw [Prob.stat, h1, stack_tmul, Prob.penResidual, P.gradPhi_eq, Prob.gradObj, Prob.gT, Matrix.add_mulVec, Matrix.smul_mulVec,
    smul_add]
  cases b
  · simp only [Bool.false_eq_true, if_false]; abel
  · simp only [if_true]; abel

theorem residual_shifted (r : K) (x : Fin n.nV → K) {off : Nat} (y : Fin (off + n.nA) → K) :
    P.residual x (P.shifted r x y) = P.penResidual r x y - r • P.gPhi := by
  rw [Prob.residual, Prob.penResidual, shifted_A, shifted_L, shifted_R, shifted_box, P.gradPhi_eq, Prob.C, Matrix.add_mulVec,
    ← Matrix.mulVec_mulVec, ← Matrix.mulVec_mulVec, Matrix.mulVec_sub, Matrix.mulVec_sub, Matrix.mulVec_smul,
    Matrix.mulVec_smul, smul_add, smul_add]
  abel

/-- The final state of `o'` certifies the penalised problem: the gradient of the penalised Lagrangian at the current
point, for the current penalty parameter and the multipliers of the last subproblem, is smaller than `ts`.  The last
multipliers of the linear constraints are kept in `yk_A`, those of the box constraints are the first part of `yk`. -/
def PenCertified (P : Prob K n) (o' : Obj (Ext K)) (ts : K) : Prop :=
  ∃ (off : Nat) (r : K) (x : Fin n.nV → K) (y y' : Fin (off + n.nA) → K),
    o'.d.boxOff = some off ∧ o'.s.xk = some (ev x) ∧ o'.s.rho = some (fin r) ∧ o'.s.ykA = some (ev (yLin y)) ∧
    o'.s.yk = some (ev y') ∧ yBox y' = yBox y ∧ ∀ i, |P.penResidual r x y i| < ts

/-- The point and the multipliers stored in `o'` (these are what the getters return) satisfy the stationarity condition
of the problem up to `ts`. -/
def Stationary (P : Prob K n) (o' : Obj (Ext K)) (ts : K) : Prop :=
  ∃ (off : Nat) (x : Fin n.nV → K) (y : Fin (off + n.nA) → K),
    o'.d.boxOff = some off ∧ o'.s.xk = some (ev x) ∧ o'.s.yk = some (ev y) ∧ ∀ i, |P.residual x y i| < ts

/-- C20: at the returned point the complementarity violation is below its tolerance. -/
theorem C20_complementary (hS : Setup e o n P x0 r0 f) {ts tc : K} (hts : o.d.opts.statTol = fin ts)
    (htc : o.d.opts.complTol = fin tc) {fuel : Nat} {o' : Obj (Ext K)}
    (h : runSolver e fuel o = .ok (some (.successfulReturn, o'))) : ∃ x, o'.s.xk = some (ev x) ∧ P.phi x < tc := by
  obtain ⟨off, r, b, x, y, h0, _, _, hx, hr, hy, _, hphi, hst⟩ := success_x hS hts htc h
  exact ⟨x, hx, hphi⟩

/-- C20: at the returned point, if a penalty update has been made or the lower complementarity bounds vanish (more
generally, have no linear part), the gradient of the penalised Lagrangian is below the stationarity tolerance, for the
final penalty parameter.  `Q` has to be symmetric in sparse mode. -/
theorem C20_certified (hS : Setup e o n P x0 r0 f) {ts tc : K} (hts : o.d.opts.statTol = fin ts)
    (htc : o.d.opts.complTol = fin tc) (hQ : o.d.sparse = true → P.Qᵀ = P.Q) {fuel : Nat} {o' : Obj (Ext K)}
    (h : runSolver e fuel o = .ok (some (.successfulReturn, o'))) (hc : o'.s.outer ≠ some 0 ∨ P.gPhi = 0) :
    PenCertified P o' ts := by
  obtain ⟨off, r, b, x, y, h0, _, ⟨k, hk, hk0, hkb⟩, hx, hr, hy, hy2, hphi, hst⟩ := success_x hS hts htc h
  refine ⟨off, r, x, y, _, h0.boxOff, hx, hr, hy, hy2, shifted_box _, ?_⟩
  intro i
  have hi := hst i
  rw [stat_eq r b x y hQ] at hi
  have hz : (if b then 0 else r • P.gPhi) = 0 := by
    cases b
    · rcases hc with hc | hc
      · have : ¬ (0 < k) := fun h => by simpa using hkb.mpr h
        exact absurd (by rw [hk, le_antisymm (not_lt.mp this) hk0]) hc
      · simp [hc]
    · simp
  rwa [hz, sub_zero] at hi

/-- C20: without penalty update the tested vector misses the linear part `rho * g_phi` of the penalty gradient. -/
theorem C20_no_update (hS : Setup e o n P x0 r0 f) {ts tc : K} (hts : o.d.opts.statTol = fin ts)
    (htc : o.d.opts.complTol = fin tc) (hQ : o.d.sparse = true → P.Qᵀ = P.Q) {fuel : Nat} {o' : Obj (Ext K)}
    (h : runSolver e fuel o = .ok (some (.successfulReturn, o'))) (h0 : o'.s.outer = some 0) :
    ∃ (off : Nat) (r : K) (x : Fin n.nV → K) (y y' : Fin (off + n.nA) → K),
      o'.d.boxOff = some off ∧ o'.s.xk = some (ev x) ∧ o'.s.rho = some (fin r) ∧ o'.s.ykA = some (ev (yLin y)) ∧
      o'.s.yk = some (ev y') ∧ yBox y' = yBox y ∧ ∀ i, |(P.penResidual r x y - r • P.gPhi) i| < ts := by
  obtain ⟨off, r, b, x, y, hD, _, ⟨k, hk, hk0, hkb⟩, hx, hr, hy, hy2, hphi, hst⟩ := success_x hS hts htc h
  refine ⟨off, r, x, y, _, hD.boxOff, hx, hr, hy, hy2, shifted_box _, ?_⟩
  intro i
  have hi := hst i
  have hb : b = false := by
    cases b
    · rfl
    · rw [h0] at hk
      injection hk with hk
      have := hkb.mp rfl
      omega
  rw [stat_eq r b x y hQ, hb] at hi
  exact hi

/-- C21: the returned point and the returned multipliers satisfy the stationarity condition of the problem up to the
tolerance, if the lower complementarity bounds vanish (more generally, have no linear part) or if no penalty update
has been made. -/
theorem C21_stationary (hS : Setup e o n P x0 r0 f) {ts tc : K} (hts : o.d.opts.statTol = fin ts)
    (htc : o.d.opts.complTol = fin tc) (hQ : o.d.sparse = true → P.Qᵀ = P.Q) {fuel : Nat} {o' : Obj (Ext K)}
    (h : runSolver e fuel o = .ok (some (.successfulReturn, o'))) (hc : P.gPhi = 0 ∨ o'.s.outer = some 0) :
    Stationary P o' ts := by
  obtain ⟨off, r, b, x, y, hD, _, ⟨k, hk, hk0, hkb⟩, hx, hr, _, hy, hphi, hst⟩ := success_x hS hts htc h
  refine ⟨off, x, P.shifted r x y, hD.boxOff, hx, hy, ?_⟩
  intro i
  have hi := hst i
  rw [stat_eq r b x y hQ] at hi
  rw [residual_shifted]
  cases b
  · exact hi
  · rcases hc with hc | hc
    · rw [hc] at hi ⊢
      simpa using hi
    · rw [hc] at hk
      injection hk with hk
      have := hkb.mp rfl
      omega

/-- C21: in general the residual of the returned multipliers is off by `rho * g_phi` once the penalty has been updated. -/
theorem C21_error (hS : Setup e o n P x0 r0 f) {ts tc : K} (hts : o.d.opts.statTol = fin ts)
    (htc : o.d.opts.complTol = fin tc) (hQ : o.d.sparse = true → P.Qᵀ = P.Q) {fuel : Nat} {o' : Obj (Ext K)}
    (h : runSolver e fuel o = .ok (some (.successfulReturn, o'))) (hc : o'.s.outer ≠ some 0) :
    ∃ (off : Nat) (r : K) (x : Fin n.nV → K) (y : Fin (off + n.nA) → K),
      o'.d.boxOff = some off ∧ o'.s.xk = some (ev x) ∧ o'.s.rho = some (fin r) ∧ o'.s.yk = some (ev y) ∧
      ∀ i, |(P.residual x y + r • P.gPhi) i| < ts := by
  obtain ⟨off, r, b, x, y, hD, _, ⟨k, hk, hk0, hkb⟩, hx, hr, _, hy, hphi, hst⟩ := success_x hS hts htc h
  refine ⟨off, r, x, P.shifted r x y, hD.boxOff, hx, hr, hy, ?_⟩
  intro i
  have hi := hst i
  rw [stat_eq r b x y hQ] at hi
  rw [residual_shifted, sub_add_cancel]
  cases b
  · exfalso
    have : ¬ (0 < k) := fun h => by simpa using hkb.mpr h
    exact hc (by rw [hk, le_antisymm (not_lt.mp this) hk0])
  · simpa using hi

end LCQ
