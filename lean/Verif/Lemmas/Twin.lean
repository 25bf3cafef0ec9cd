import Verif.Lemmas.Again

/-!
# Two runs side by side

A run reads the matrices through a few operations only.  When two objects give the same results for
these operations on the vectors that occur, and the QP solver answers alike, both runs go through
the same iterates.  `F` is a property of the numbers that occur: nothing at all when the matrices are
the same arrays, finiteness when a dense and a sparse representation are compared.

Buffers that are written before they are read need not agree.
-/

set_option linter.unusedSectionVars false

namespace LCQ
open Scalar

variable {α : Type} [Scalar α]

/-! ## related outcomes -/

/-- both return related values or both have the same fault -/
def RelM {β γ : Type} (R : β → γ → Prop) : M β → M γ → Prop
  | .ok a, .ok b => R a b
  | .error f, .error g => f = g
  | _, _ => False

theorem RelM.bind {β γ β' γ' : Type} {R : β → γ → Prop} {S : β' → γ' → Prop} {m : M β} {m' : M γ}
    {f : β → M β'} {g : γ → M γ'} (h : RelM R m m') (hs : ∀ a b, R a b → RelM S (f a) (g b)) :
    RelM S (m >>= f) (m' >>= g) := by
  cases m <;> cases m'
  · exact h
  · exact h.elim
  · exact h.elim
  · exact hs _ _ h

theorem RelM.same {β β' γ' : Type} {S : β' → γ' → Prop} {m : M β} {f : β → M β'} {g : β → M γ'}
    (hs : ∀ a, m = .ok a → RelM S (f a) (g a)) : RelM S (m >>= f) (m >>= g) := by
  cases m
  · exact rfl
  · exact hs _ rfl

theorem RelM.mono {β γ : Type} {R S : β → γ → Prop} {m : M β} {m' : M γ} (h : RelM R m m')
    (hs : ∀ a b, R a b → S a b) : RelM S m m' := by
  cases m <;> cases m'
  · exact h
  · exact h.elim
  · exact h.elim
  · exact hs _ _ h

theorem RelM.of_ok {β γ : Type} {R : β → γ → Prop} {m : M β} {m' : M γ} {a : β} {b : γ} (h : m = .ok a)
    (h' : m' = .ok b) (hR : R a b) : RelM R m m' := by subst h h'; exact hR

/-! ## vectors and matrices -/

/-- a vector of `n` entries with property `F` -/
def VecF (F : α → Prop) (n : Nat) (l : List α) : Prop := l.length = n ∧ ∀ i < n, F (gt l i)

theorem VecF.tab {F : α → Prop} {n : Nat} {f : Nat → α} (h : ∀ i < n, F (f i)) : VecF F n (tab n f) :=
  ⟨by simp, fun i hi => by rw [gt_tab _ hi]; exact h i hi⟩

theorem VecF.len {F : α → Prop} {n : Nat} {l : List α} (h : VecF F n l) : l.length = n := h.1

/-- a property of numbers that survives the operations of a run -/
structure Closed (F : α → Prop) : Prop where
  lit : ∀ m e, F (lit m e)
  add : ∀ a b, F a → F b → F (a +. b)
  mul : ∀ a b, F a → F b → F (a *. b)
  neg : ∀ a, F a → F (-. a)
  div : ∀ a b, F a → F b → (zero <. b) = true → F (a /. b)

theorem Closed.facc {F : α → Prop} (hF : Closed F) {a : α} {n : Nat} {t : Nat → α} (ha : F a)
    (ht : ∀ i < n, F (t i)) : F (facc a n t) := by
  induction n with
  | zero => exact ha
  | succ n ih => exact hF.add _ _ (ih fun i hi => ht i (by omega)) (ht n (by omega))

/-- the products with a matrix and its transpose agree -/
structure Rep (F : α → Prop) (p : Bool) (B : Option (List α)) (S : Option (CSC α)) (p' : Bool)
    (B' : Option (List α)) (S' : Option (CSC α)) (m n : Nat) : Prop where
  mul : ∀ b o o', VecF F n b → o.length = m → o'.length = m → ∃ r, VecF F m r ∧
    mulDS p B S b o m n = .ok r ∧ mulDS p' B' S' b o' m n = .ok r
  tmul : ∀ b o o', VecF F m b → o.length = n → o'.length = n → ∃ r, VecF F n r ∧
    tmulDS p B S b o m n = .ok r ∧ tmulDS p' B' S' b o' m n = .ok r

/-- the affine map and the quadratic form of a square matrix agree -/
structure RepSq (F : α → Prop) (p : Bool) (B : Option (List α)) (S : Option (CSC α)) (p' : Bool)
    (B' : Option (List α)) (S' : Option (CSC α)) (n : Nat) : Prop where
  affine : ∀ a b c o o', F a → VecF F n b → VecF F n c → o.length = n → o'.length = n → ∃ r, VecF F n r ∧
    affineDS p B S a b c o n = .ok r ∧ affineDS p' B' S' a b c o' n = .ok r
  quad : ∀ b, VecF F n b → ∃ q, F q ∧ quadDS p B S b n = .ok q ∧ quadDS p' B' S' b n = .ok q

/-! ## related objects -/

/-- the two wrappers for qpOASES with the dimensions of the problem -/
inductive QpoDims (n : Dims) : Sub α → Prop
  | dense (Q A : List α) : QpoDims n (.dense n.nV n.nA Q A)
  | sparse (Q A : CSC α) : QpoDims n (.sparse n.nV n.nA Q A)

/-- problem data which lead to the same run -/
structure TwinD (F : α → Prop) (H : Prop) (n : Dims) (d d' : Data α) : Prop where
  dims : d.dims = some n
  dims' : d'.dims = some n
  nDuals : d.nDuals = some (n.nV + n.nA)
  nDuals' : d'.nDuals = some (n.nV + n.nA)
  boxOff : d.boxOff = some n.nV
  boxOff' : d'.boxOff = some n.nV
  lb : d.lb = d'.lb
  ub : d.ub = d'.ub
  lbA : d.lbA = d'.lbA
  ubA : d.ubA = d'.ubA
  g : d.g = d'.g
  gV : ∃ g, d'.g = some g ∧ VecF F n.nV g
  gPhi : d.gPhi = d'.gPhi
  gPhiV : ∀ g, d'.gPhi = some g → VecF F n.nV g
  phiConst : d.phiConst = d'.phiConst
  statTol : d.opts.statTol = d'.opts.statTol
  complTol : d.opts.complTol = d'.opts.complTol
  factor : d.opts.factor = d'.opts.factor
  factorF : F d'.opts.factor
  zeroFirst : d.opts.zeroFirst = d'.opts.zeroFirst
  perturb : d.opts.perturb = d'.opts.perturb
  maxIter : d.opts.maxIter = d'.opts.maxIter
  maxRho : d.opts.maxRho = d'.opts.maxRho
  nDyn : d.opts.nDyn = d'.opts.nDyn
  hist : d'.opts.nDyn ≠ 0 → H
  eta : d.opts.eta = d'.opts.eta
  printLevel : d.opts.printLevel = d'.opts.printLevel
  storeSteps : d.opts.storeSteps = d'.opts.storeSteps
  qpoases : d.opts.qpoases = d'.opts.qpoases
  osqp : d.opts.osqp = d'.opts.osqp
  Q : RepSq F d.sparse d.Q d.Qs d'.sparse d'.Q d'.Qs n.nV
  C : RepSq F d.sparse d.C d.Cs d'.sparse d'.C d'.Cs n.nV
  A : Rep F d.sparse d.A d.As d'.sparse d'.A d'.As n.nA n.nV
  L : Rep F d.sparse d.L d.Ls d'.sparse d'.L d'.Ls n.nComp n.nV
  R : Rep F d.sparse d.R d.Rs d'.sparse d'.R d'.Rs n.nComp n.nV

/-- the QP solver gives the same answers to both objects, with entries in `F` -/
structure TwinE (F : α → Prop) (n : Dims) (d d' : Data α) (e e' : Env α) : Prop where
  rnd : e.rnd = e'.rnd
  junk : e.junk = e'.junk
  qp : ∃ s s', d.sub = some s ∧ d'.sub = some s' ∧ QpoDims n s ∧ QpoDims n s' ∧
    ∀ k init g lA uA x y lb ub q p,
      e.qp k ⟨s, init, g, lA, uA, x, y, lb, ub, q, p⟩ = e'.qp k ⟨s', init, g, lA, uA, x, y, lb, ub, q, p⟩ ∧
      ((e'.qp k ⟨s', init, g, lA, uA, x, y, lb, ub, q, p⟩).ret = 0 →
        (∀ i < n.nV, F ((e'.qp k ⟨s', init, g, lA, uA, x, y, lb, ub, q, p⟩).x i)) ∧
        ∀ i < n.nV + n.nA, F ((e'.qp k ⟨s', init, g, lA, uA, x, y, lb, ub, q, p⟩).y i))

/-- the members which the user can see, and those that decide about the next steps; `H` tells whether
the record of the dynamic penalty rule counts -/
structure Core0 (H : Prop) (s t : St α) : Prop where
  rho : s.rho = t.rho
  alpha : s.alpha = t.alpha
  gTilde : s.gTilde = t.gTilde
  xk : s.xk = t.xk
  yk : s.yk = t.yk
  outer : s.outer = t.outer
  inner : s.inner = t.inner
  total : s.total = t.total
  algo : s.algo = t.algo
  hist : H → s.hist = t.hist
  stats : s.stats = t.stats
  calls : s.calls = t.calls
  rnd : s.rnd = t.rnd
  out : s.out = t.out

/-- moreover the results of the last QP -/
structure Core (H : Prop) (s t : St α) : Prop extends Core0 H s t where
  qpIter : s.qpIter = t.qpIter
  qpExit : s.qpExit = t.qpExit
  ans : s.ans = t.ans

/-- sizes of the buffers -/
structure Bufs (n : Dims) (s : St α) : Prop where
  gk : Has s.gk n.nV
  xnew : Has s.xnew n.nV
  pk : Has s.pk n.nV
  ykA : Has s.ykA n.nA
  statk : Has s.statk n.nV
  cstat : Has s.cstat n.nV
  bstat : Has s.bstat n.nV
  lkTmp : Has s.lkTmp n.nV

/-- the penalised Hessian -/
abbrev Hs (α : Type) := Option (List α) × Option (CSC α) × List Int

/-- read the penalised Hessian -/
def St.hs (s : St α) : Hs α := (s.Qk, s.Qks, s.idxC)

/-- write the penalised Hessian -/
def St.setHs (s : St α) (h : Hs α) : St α :=
  { s with
    Qk := h.1
    Qks := h.2.1
    idxC := h.2.2 }

/-- what is needed about the penalised Hessians: `W r` relates those for the penalty `r`, `W0` those
before the first iteration -/
structure TwinQ (F : α → Prop) (n : Dims) (d d' : Data α) (W0 : Hs α → Hs α → Prop)
    (W : α → Hs α → Hs α → Prop) : Prop where
  sq : ∀ r h h', F r → W r h h' → RepSq F d.sparse h.1 h.2.1 d'.sparse h'.1 h'.2.1 n.nV
  set : ∀ r (s t : St α), F r → s.rho = some r → t.rho = some r → W0 s.hs t.hs →
    ∃ h h', setQk d s = .ok (s.setHs h) ∧ setQk d' t = .ok (t.setHs h') ∧ W r h h'
  upd : ∀ r (s t : St α), F r → s.rho = some (r *. d'.opts.factor) → t.rho = some (r *. d'.opts.factor) →
    W r s.hs t.hs →
    ∃ h h', updateQk d s = .ok (s.setHs h) ∧ updateQk d' t = .ok (t.setHs h') ∧ W (r *. d'.opts.factor) h h'

/-- states in the main loop -/
structure Alike (F : α → Prop) (n : Dims) (W : α → Hs α → Hs α → Prop) (H P : Prop) (r : α) (s t : St α) : Prop
    extends Core H s t where
  b : Bufs n s
  b' : Bufs n t
  hs : W r s.hs t.hs
  rr : t.rho = some r
  rF : F r
  a : ∃ a, t.alpha = some a ∧ F a
  gT : ∃ v, t.gTilde = some v ∧ VecF F n.nV v
  x : ∃ v, t.xk = some v ∧ VecF F n.nV v
  y : ∃ v, t.yk = some v ∧ VecF F (n.nV + n.nA) v
  p : ∃ v, s.pk = some v ∧ t.pk = some v ∧ VecF F n.nV v
  ya : ∃ v, s.ykA = some v ∧ t.ykA = some v ∧ VecF F n.nA v
  st : P → s.statk = t.statk

/-- prove `Core0` for states with some members replaced -/
macro "core0_of " h:term : tactic => `(tactic| (constructor <;> first
  | rfl | exact (Core0.rho $h :) | exact (Core0.alpha $h :) | exact (Core0.gTilde $h :) | exact (Core0.xk $h :)
  | exact (Core0.yk $h :) | exact (Core0.outer $h :) | exact (Core0.inner $h :) | exact (Core0.total $h :)
  | exact (Core0.algo $h :) | exact (Core0.hist $h :) | exact (Core0.stats $h :) | exact (Core0.calls $h :)
  | exact (Core0.rnd $h :) | exact (Core0.out $h :) | exact fun _ => rfl | assumption))

/-- prove `Core` for states with some members replaced -/
macro "core_of " h:term : tactic => `(tactic| (constructor <;> first
  | rfl | (core0_of (Core.toCore0 $h)) | exact (Core.qpIter $h :) | exact (Core.qpExit $h :)
  | exact (Core.ans $h :)))

/-- prove `Bufs` for a state with some members replaced -/
macro "bufs_of " h:term : tactic => `(tactic| (constructor <;> first
  | exact (Bufs.gk $h :) | exact (Bufs.xnew $h :) | exact (Bufs.pk $h :) | exact (Bufs.ykA $h :) | exact (Bufs.statk $h :)
  | exact (Bufs.cstat $h :) | exact (Bufs.bstat $h :) | exact (Bufs.lkTmp $h :) | exact ⟨_, rfl, by assumption⟩
  | assumption | exact ⟨_, rfl, VecF.len (by assumption)⟩ | exact ⟨_, rfl, by simp⟩))

/-- prove `Alike` for states with some members replaced -/
macro "alike_of " h:term : tactic => `(tactic| (constructor <;> first
  | (core_of (Alike.toCore $h)) | (bufs_of (Alike.b $h)) | (bufs_of (Alike.b' $h)) | assumption | rfl
  | exact (Alike.hs $h :) | exact (Alike.rr $h :) | exact (Alike.rF $h :) | exact (Alike.a $h :) | exact (Alike.gT $h :)
  | exact (Alike.x $h :) | exact (Alike.y $h :) | exact (Alike.p $h :) | exact (Alike.ya $h :) | exact (Alike.st $h :)
  | exact fun _ => rfl | exact ⟨_, rfl, by assumption⟩ | exact ⟨_, rfl, rfl, by assumption⟩))

variable {F : α → Prop} {n : Dims} {d d' : Data α} {e e' : Env α} {W0 : Hs α → Hs α → Prop}
  {W : α → Hs α → Hs α → Prop} {H P : Prop} {r : α} {s t : St α}

/-! ## values -/

theorem getPhi_rel (D : TwinD F H n d d') (h : Core H s t) (hx : ∃ v, t.xk = some v ∧ VecF F n.nV v) :
    getPhi d s = getPhi d' t := by
  obtain ⟨x, hx, vx⟩ := hx
  obtain ⟨q, _, h1, h2⟩ := D.C.quad x vx
  simp only [getPhi, D.dims, D.dims', h.xk, hx, initd_some, deref_some, ok_bind, D.gPhi, D.phiConst, h1, h2]

theorem getObj_rel (D : TwinD F H n d d') (h : Core H s t) (hx : ∃ v, t.xk = some v ∧ VecF F n.nV v) :
    getObj d s = getObj d' t := by
  obtain ⟨x, hx, vx⟩ := hx
  obtain ⟨q, _, h1, h2⟩ := D.Q.quad x vx
  simp only [getObj, D.dims, D.dims', h.xk, hx, initd_some, deref_some, ok_bind, D.g, h1, h2]

theorem getMerit_rel (D : TwinD F H n d d') (hW : TwinQ F n d d' W0 W) (h : Alike F n W H P r s t) :
    getMerit d s = getMerit d' t := by
  obtain ⟨x, hx, vx⟩ := h.x
  obtain ⟨q, _, h1, h2⟩ := (hW.sq r _ _ h.rF h.hs).quad x vx
  simp only [St.hs] at h1 h2
  simp only [getMerit, D.dims, D.dims', h.xk, hx, initd_some, deref_some, ok_bind, D.g, h1, h2]

theorem complementarityCheck_rel (D : TwinD F H n d d') (h : Core H s t)
    (hx : ∃ v, t.xk = some v ∧ VecF F n.nV v) : complementarityCheck d s = complementarityCheck d' t := by
  simp only [complementarityCheck, getPhi_rel D h hx, D.complTol]

theorem stationarityCheck_rel (D : TwinD F H n d d') (h : s.statk = t.statk) :
    stationarityCheck d s = stationarityCheck d' t := by
  simp only [stationarityCheck, D.dims, D.dims', h, D.statTol]

theorem updateLinearization_rel (D : TwinD F H n d d') (h : Core0 H s t) (hr : t.rho = some r) (hF : F r)
    (hx : ∃ v, t.xk = some v ∧ VecF F n.nV v) (hg : ∃ v, t.gTilde = some v ∧ VecF F n.nV v)
    (hb : Has s.gk n.nV) (hb' : Has t.gk n.nV) :
    ∃ v, v.length = n.nV ∧ updateLinearization d s = .ok { s with gk := some v } ∧
      updateLinearization d' t = .ok { t with gk := some v } := by
  obtain ⟨x, hx, vx⟩ := hx
  obtain ⟨g, hg, vg⟩ := hg
  obtain ⟨o, ho, lo⟩ := hb
  obtain ⟨o', ho', lo'⟩ := hb'
  obtain ⟨v, vv, h1, h2⟩ := D.C.affine r x g o o' hF vx vg lo lo'
  refine ⟨v, vv.1, ?_, ?_⟩
  · simp only [updateLinearization, D.dims, h.rho, hr, h.xk, hx, h.gTilde, hg, ho, initd_some, deref_some,
      ok_bind, h1]
  · simp only [updateLinearization, D.dims', hr, hx, hg, ho', initd_some, deref_some, ok_bind, h2]

theorem Alike.linear (D : TwinD F H n d d') (h : Alike F n W H P r s t) :
    RelM (fun s t => Alike F n W H P r s t ∧ s.gk = t.gk) (updateLinearization d s) (updateLinearization d' t) := by
  obtain ⟨v, lv, h1, h2⟩ := updateLinearization_rel D h.toCore0 h.rr h.rF h.x h.gT h.b.gk h.b'.gk
  rw [h1, h2]
  refine ⟨?_, rfl⟩
  alike_of h

/-! ## the first part of the loop body -/

theorem updateStep_rel (hF : Closed F) (D : TwinD F H n d d') (h : Alike F n W H P r s t) :
    RelM (Alike F n W H P r) (updateStep d s) (updateStep d' t) := by
  obtain ⟨x, hx, vx⟩ := h.x
  obtain ⟨a, ha, fa⟩ := h.a
  obtain ⟨p, hp, hp', vp⟩ := h.p
  have hw := weightedVecAdd_ok (alpha := one) (beta := a) (a := .dst) (b := .buf p) (c := x) (m := n.nV)
    vx.1 vp.1 vx.1
  simp only [updateStep, D.dims, D.dims', h.xk, hx, h.alpha, ha, hp, hp', initd_some, deref_some, ok_bind, hw]
  have := VecF.tab (F := F) (n := n.nV) (f := fun i => one *. gt (Src.dst.val x) i +. a *. gt ((Src.buf p).val x) i)
    fun i hi => hF.add _ _ (hF.mul _ _ (hF.lit _ _) (vx.2 i hi)) (hF.mul _ _ fa (vp.2 i hi))
  alike_of h

theorem boxStat_rel (D : TwinD F H n d d') (h : Alike F n W H P r s t) {v : List α} (hv : v.length = n.nV) :
    RelM (fun a b => a.1 = b.1 ∧ a.1.length = n.nV ∧ Has a.2 n.nV ∧ Has b.2 n.nV) (boxStat d s n.nV v)
      (boxStat d' t n.nV v) := by
  obtain ⟨y, hy, vy⟩ := h.y
  obtain ⟨o, ho, lo⟩ := h.b.bstat
  obtain ⟨o', ho', lo'⟩ := h.b'.bstat
  unfold boxStat
  rw [D.lb, D.ub]
  split
  · have hc : ∀ o : List α, o.length = n.nV →
        loop n.nV (fun i b => do let v ← rd y i; wr b i v) o = .ok (tab n.nV (gt y)) := by
      intro o lo
      refine loop_fill (gt y) n.nV _ o lo ?_
      intro i hi
      rw [rd_ok (by rw [vy.1]; omega), ok_bind, wr_ok (by simp; omega)]
    have hw := weightedVecAdd_ok (alpha := one) (beta := -. one) (a := .dst) (b := .buf (tab n.nV (gt y)))
      (c := v) (m := n.nV) hv (by simp [Src.val]) hv
    simp only [h.yk, hy, ho, ho', deref_some, ok_bind, hc o lo, hc o' lo', hw]
    exact ⟨rfl, by simp, ⟨_, rfl, by simp⟩, ⟨_, rfl, by simp⟩⟩
  · exact ⟨rfl, hv, h.b.bstat, h.b'.bstat⟩

theorem updateStationarity_rel (hF : Closed F) (D : TwinD F H n d d') (hW : TwinQ F n d d' W0 W)
    (h : Alike F n W H P r s t) :
    RelM (Alike F n W H True r) (updateStationarity d s) (updateStationarity d' t) := by
  obtain ⟨x, hx, vx⟩ := h.x
  obtain ⟨g, hg, vg⟩ := h.gT
  obtain ⟨ya, hya, hya', vya⟩ := h.ya
  obtain ⟨o, ho, lo⟩ := h.b.statk
  obtain ⟨o', ho', lo'⟩ := h.b'.statk
  obtain ⟨c, hc, lc⟩ := h.b.cstat
  obtain ⟨c', hc', lc'⟩ := h.b'.cstat
  obtain ⟨v, vv, h1, h2⟩ := (hW.sq r _ _ h.rF h.hs).affine one x g o o' (hF.lit _ _) vx vg lo lo'
  simp only [St.hs] at h1 h2
  obtain ⟨w, vw, h3, h4⟩ := D.A.tmul ya c c' vya lc lc'
  have hw := weightedVecAdd_ok (alpha := one) (beta := -. one) (a := .dst) (b := .buf w) (c := v) (m := n.nV)
    vv.1 vw.1 vv.1
  simp only [updateStationarity, D.dims, D.dims', h.xk, hx, h.gTilde, hg, hya, hya', ho, ho', hc, hc', initd_some,
    deref_some, ok_bind, h1, h2, h3, h4, hw]
  refine (boxStat_rel D h (by simp)).bind fun a b ⟨hab, la, l1, l2⟩ => ?_
  have la' : b.1.length = n.nV := hab ▸ la
  rw [hab]
  alike_of h

theorem Alike.say (h : Alike F n W H P r s t) (v : Ev α) : Alike F n W H P r (s.say v) (t.say v) := by
  unfold St.say
  rw [h.out]
  alike_of h

theorem Core.say (h : Core H s t) (v : Ev α) : Core H (s.say v) (t.say v) := by
  unfold St.say
  rw [h.out]
  core_of h

theorem printIteration_rel (D : TwinD F H n d d') (h : Alike F n W H True r s t) :
    RelM (Alike F n W H True r) (printIteration d s) (printIteration d' t) := by
  obtain ⟨p, hp, hp', _⟩ := h.p
  unfold printIteration
  rw [D.printLevel]
  split
  · exact h
  rw [h.inner]
  refine RelM.same fun i _ => ?_
  split
  · exact h
  simp only [iterMore, D.printLevel, D.dims, D.dims', initd_some, ok_bind, h.outer, h.st trivial, getPhi_rel D h.toCore h.x, h.rho,
    hp, hp', deref_some, h.alpha, h.qpIter]
  refine RelM.same fun o _ => RelM.same fun u _ => RelM.same fun v _ => RelM.same fun w _ =>
    RelM.same fun z _ => RelM.same fun y _ => RelM.same fun k _ => ?_
  split
  · exact (h.say _).say _
  · exact h.say _

theorem storeSteps_rel (D : TwinD F H n d d') (hW : TwinQ F n d d' W0 W) (h : Alike F n W H True r s t) :
    RelM (Alike F n W H True r) (storeSteps d s) (storeSteps d' t) := by
  obtain ⟨p, hp, hp', vp⟩ := h.p
  have hb := h.b'.statk
  simp only [storeSteps, D.dims, D.dims', initd_some, ok_bind, h.xk, h.inner, h.qpIter, h.alpha, hp, hp',
    deref_some, h.st trivial, getObj_rel D h.toCore h.x, getPhi_rel D h.toCore h.x, getMerit_rel D hW h, h.stats]
  repeat refine RelM.same fun _ _ => ?_
  alike_of h

theorem storeIf_rel (D : TwinD F H n d d') (hW : TwinQ F n d d' W0 W) (h : Alike F n W H True r s t) :
    RelM (Alike F n W H True r) (storeIf d s) (storeIf d' t) := by
  unfold storeIf
  rw [D.storeSteps]
  split
  · exact storeSteps_rel D hW h
  · exact h

theorem updateTotalIter_rel (h : Alike F n W H P r s t) :
    RelM (Alike F n W H P r) (updateTotalIter s) (updateTotalIter t) := by
  simp only [updateTotalIter, h.total, h.stats]
  repeat refine RelM.same fun _ _ => ?_
  alike_of h

theorem updateOuterIter_rel (h : Alike F n W H P r s t) :
    RelM (Alike F n W H P r) (updateOuterIter s) (updateOuterIter t) := by
  simp only [updateOuterIter, h.outer, h.stats]
  repeat refine RelM.same fun _ _ => ?_
  alike_of h

theorem incInner_rel (h : Alike F n W H P r s t) : RelM (Alike F n W H P r) (incInner s) (incInner t) := by
  simp only [incInner, h.inner]
  repeat refine RelM.same fun _ _ => ?_
  alike_of h

theorem advance_rel (hF : Closed F) (D : TwinD F H n d d') (hW : TwinQ F n d d' W0 W) (h : Alike F n W H P r s t) :
    RelM (Alike F n W H True r) (advance d s) (advance d' t) := by
  unfold advance
  refine (updateStep_rel hF D h).bind fun _ _ h => ?_
  refine (updateStationarity_rel hF D hW h).bind fun _ _ h => ?_
  refine (printIteration_rel D h).bind fun _ _ h => ?_
  refine (storeIf_rel D hW h).bind fun _ _ h => ?_
  refine (updateTotalIter_rel h).bind fun _ _ h => ?_
  exact incInner_rel h

/-! ## penalty updates -/

theorem updateGTilde_rel (hF : Closed F) (D : TwinD F H n d d') (h : Alike F n W H P r s t) :
    RelM (Alike F n W H P r) (updateGTilde d s) (updateGTilde d' t) := by
  unfold updateGTilde
  rw [D.gPhi]
  split
  · exact h
  rename_i gp hgp
  obtain ⟨g, hg, vg⟩ := D.gV
  obtain ⟨v, hv, vv⟩ := h.gT
  have vgp := D.gPhiV gp hgp
  have hw := weightedVecAdd_ok (alpha := one) (beta := r) (a := .buf g) (b := .buf gp) (c := v) (m := n.nV)
    vg.1 vgp.1 vv.1
  simp only [D.dims, D.dims', h.rho, h.rr, D.g, hg, h.gTilde, hv, initd_some, deref_some, ok_bind, hw]
  have := VecF.tab (F := F) (n := n.nV) (f := fun i => one *. gt ((Src.buf g).val v) i +. r *. gt ((Src.buf gp).val v) i)
    fun i hi => hF.add _ _ (hF.mul _ _ (hF.lit _ _) (vg.2 i hi)) (hF.mul _ _ h.rF (vgp.2 i hi))
  have hr := h.rF
  alike_of h

theorem updatePenalty_rel (hF : Closed F) (D : TwinD F H n d d') (hW : TwinQ F n d d' W0 W)
    (h : Alike F n W H P r s t) :
    RelM (Alike F n W H P (r *. d'.opts.factor)) (updatePenalty d s) (updatePenalty d' t) := by
  simp only [updatePenalty, h.rho, h.rr, initd_some, ok_bind, D.factor, D.nDyn, h.stats]
  obtain ⟨a, a', h1, h2, h3⟩ := hW.upd r
    { s with
      hist := if d'.opts.nDyn > 0 then [] else s.hist
      rho := some (r *. d'.opts.factor)
      stats := (t.stats.updateRhoOpt (r *. d'.opts.factor)).2 }
    { t with
      hist := if d'.opts.nDyn > 0 then [] else t.hist
      rho := some (r *. d'.opts.factor)
      stats := (t.stats.updateRhoOpt (r *. d'.opts.factor)).2 } h.rF rfl rfl h.hs
  rw [h1, h2, ok_bind, ok_bind]
  apply updateGTilde_rel hF D
  have hr := hF.mul _ _ h.rF D.factorF
  have hh : H → (if d'.opts.nDyn > 0 then [] else s.hist) = if d'.opts.nDyn > 0 then [] else t.hist := fun hH => by
    rw [h.hist hH]
  alike_of h

theorem bump_rel (hF : Closed F) (D : TwinD F H n d d') (hW : TwinQ F n d d' W0 W) (h : Alike F n W H P r s t) :
    RelM (fun s t => ∃ r, Alike F n W H P r s t) (bump d s) (bump d' t) := by
  unfold bump
  refine (updatePenalty_rel hF D hW h).bind fun _ _ h => ?_
  refine (updateOuterIter_rel h).bind fun _ _ h => ?_
  refine ⟨r *. d'.opts.factor, ?_⟩
  alike_of h

theorem leyffer_rel (D : TwinD F H n d d') (h : Alike F n W H P r s t) :
    RelM (fun a b => a.1 = b.1 ∧ Alike F n W H P r a.2 b.2) (leyfferCheckPositive d s)
      (leyfferCheckPositive d' t) := by
  unfold leyfferCheckPositive
  rw [D.nDyn]
  split
  · exact ⟨rfl, h⟩
  rename_i hn
  rw [getPhi_rel D h.toCore h.x, h.hist (D.hist (by rintro h0; exact hn (by rw [h0]; rfl))), complementarityCheck_rel D h.toCore h.x, D.eta]
  refine RelM.same fun c _ => ?_
  split
  · refine ⟨rfl, ?_⟩
    alike_of h
  refine RelM.same fun b _ => ?_
  split
  · refine ⟨rfl, ?_⟩
    alike_of h
  refine RelM.same fun b _ => ?_
  refine ⟨rfl, ?_⟩
  alike_of h

theorem dynamicPenalty_rel (hF : Closed F) (D : TwinD F H n d d') (hW : TwinQ F n d d' W0 W)
    (h : Alike F n W H P r s t) :
    RelM (fun s t => ∃ r, Alike F n W H P r s t) (dynamicPenalty d s) (dynamicPenalty d' t) := by
  unfold dynamicPenalty
  refine (leyffer_rel D h).bind fun a b ⟨hab, h⟩ => ?_
  rw [hab]
  split
  · exact bump_rel hF D hW h
  · exact ⟨_, h⟩

/-! ## leaving the loop -/

/-- outcome of a part of the loop body -/
def StepR (H : Prop) (R : St α → St α → Prop) : Step α → Step α → Prop
  | .inl s, .inl t => R s t
  | .inr a, .inr b => a.1 = b.1 ∧ Core H a.2 b.2
  | _, _ => False

theorem andThen_rel {R S : St α → St α → Prop} {m m' : M (Step α)} {k k' : St α → M (Step α)}
    (h : RelM (StepR H R) m m') (hk : ∀ s t, R s t → RelM (StepR H S) (k s) (k' t)) :
    RelM (StepR H S) (andThen m k) (andThen m' k') := by
  unfold andThen
  refine h.bind fun a b hab => ?_
  cases a <;> cases b
  · exact hk _ _ hab
  · exact hab.elim
  · exact hab.elim
  · exact hab

theorem transformDuals_rel (D : TwinD F H n d d') (hj : e.junk = e'.junk) (h : Alike F n W H P r s t) :
    RelM (fun a b => Core H a b ∧ (∃ v, b.xk = some v ∧ VecF F n.nV v) ∧ a.ykA = b.ykA) (transformDuals e d s)
      (transformDuals e' d' t) := by
  obtain ⟨x, hx, vx⟩ := h.x
  have l1 : ∀ k m, (e.alloc k m).length = m := fun k m => by simp [Env.alloc]
  have l2 : ∀ k m, (e'.alloc k m).length = m := fun k m => by simp [Env.alloc]
  obtain ⟨v, vv, h1, h2⟩ := D.R.mul x (e.alloc 14 n.nComp) (e'.alloc 14 n.nComp) vx (l1 _ _) (l2 _ _)
  obtain ⟨w, vw, h3, h4⟩ := D.L.mul x v v vx vv.1 vv.1
  obtain ⟨a, ha, ha', _⟩ := h.ya
  simp only [transformDuals, D.dims, D.dims', D.boxOff, D.boxOff', h.rho, h.xk, h.yk, hx, initd_some, deref_some,
    ok_bind, h1, h2, h3, h4]
  repeat refine RelM.same fun _ _ => ?_
  exact ⟨by core_of h.toCore, ⟨x, rfl, vx⟩, ha.trans ha'.symm⟩

theorem determine_rel (D : TwinD F H n d d') (h : Core H s t) (hx : ∃ v, t.xk = some v ∧ VecF F n.nV v)
    (ha : s.ykA = t.ykA) :
    RelM (Core H) (determineStationarityType e d s) (determineStationarityType e' d' t) := by
  obtain ⟨x, hx, vx⟩ := hx
  have l1 : ∀ k m, (e.alloc k m).length = m := fun k m => by simp [Env.alloc]
  have l2 : ∀ k m, (e'.alloc k m).length = m := fun k m => by simp [Env.alloc]
  obtain ⟨v, vv, h1, h2⟩ := D.L.mul x (e.alloc 15 n.nComp) (e'.alloc 15 n.nComp) vx (l1 _ _) (l2 _ _)
  obtain ⟨w, vw, h3, h4⟩ := D.R.mul x (e.alloc 16 n.nComp) (e'.alloc 16 n.nComp) vx (l1 _ _) (l2 _ _)
  simp only [determineStationarityType, weakComplementarities, D.dims, D.dims', h.xk, hx, initd_some, deref_some,
    ok_bind, h1, h2, h3, h4, D.complTol, ha]
  repeat refine RelM.same fun _ _ => ?_
  core_of h

theorem accept_rel (D : TwinD F H n d d') (hj : e.junk = e'.junk) (h : Alike F n W H P r s t) :
    RelM (fun a b => a.1 = b.1 ∧ Core H a.2 b.2) (accept e d s) (accept e' d' t) := by
  unfold accept
  refine (transformDuals_rel D hj h).bind fun a b ⟨h, hx, ha⟩ => ?_
  refine (determine_rel D h hx ha).bind fun a b h => ?_
  rw [h.algo, h.stats, D.printLevel]
  refine RelM.same fun v _ => ?_
  split
  · refine ⟨rfl, Core.say ?_ _⟩
    core_of h
  · refine ⟨rfl, ?_⟩
    core_of h

theorem checkStationarity_rel (hF : Closed F) (D : TwinD F H n d d') (hW : TwinQ F n d d' W0 W)
    (hj : e.junk = e'.junk) (h : Alike F n W H True r s t) :
    RelM (StepR H fun s t => ∃ r, Alike F n W H True r s t) (checkStationarity e d s) (checkStationarity e' d' t) := by
  unfold checkStationarity
  rw [stationarityCheck_rel D (h.st trivial), complementarityCheck_rel D h.toCore h.x]
  refine RelM.same fun b _ => ?_
  split
  · refine RelM.same fun c _ => ?_
    split
    · exact (accept_rel D hj h).bind fun a b h => h
    · exact (bump_rel hF D hW h).bind fun a b h => h
  · exact ⟨_, h⟩

theorem checkLimits_rel (D : TwinD F H n d d') (h : Alike F n W H P r s t) :
    RelM (StepR H (Alike F n W H P r)) (checkLimits d s) (checkLimits d' t) := by
  unfold checkLimits
  rw [h.total, h.rho, D.maxIter, D.maxRho]
  refine RelM.same fun b _ => RelM.same fun c _ => ?_
  split
  · exact ⟨rfl, h.toCore⟩
  split
  · exact ⟨rfl, h.toCore⟩
  · exact h

/-! ## subproblems -/

/-- what is needed before a QP is solved -/
structure Ask (F : α → Prop) (H : Prop) (n : Dims) (s t : St α) : Prop extends Core0 H s t where
  b : Bufs n s
  b' : Bufs n t
  g : s.gk = t.gk
  x : ∃ v, t.xk = some v ∧ VecF F n.nV v
  y : HasOpt t.yk (n.nV + n.nA)

/-- what holds after a QP was solved; `u` and `v` are the states before -/
structure Told (F : α → Prop) (H : Prop) (n : Dims) (u v s t : St α) : Prop extends Core H s t where
  b : Bufs n s
  b' : Bufs n t
  y : ∃ v, t.yk = some v ∧ VecF F (n.nV + n.nA) v
  p : ∃ v, s.pk = some v ∧ t.pk = some v ∧ VecF F n.nV v
  ya : ∃ v, s.ykA = some v ∧ t.ykA = some v ∧ VecF F n.nA v
  x : t.xk = v.xk
  rr : t.rho = v.rho
  a : t.alpha = v.alpha
  gT : t.gTilde = v.gTilde
  hs : s.hs = u.hs
  hs' : t.hs = v.hs

theorem qpoasesSolve_rel {init : Bool} {c c' : Sub α} {m k : Nat} (D : TwinD F H n d d') (h : Ask F H n s t)
    (hq : ∀ k init g lA uA x y lb ub q p,
      e.qp k ⟨c, init, g, lA, uA, x, y, lb, ub, q, p⟩ = e'.qp k ⟨c', init, g, lA, uA, x, y, lb, ub, q, p⟩) :
    RelM (fun a b => a.1 = b.1 ∧ ∃ q, b.1 = (if q.ret ≠ 0 then .subproblemSolverError else .successfulReturn) ∧
        (∃ k r, q = e'.qp k r ∧ r.sub = c') ∧
        a.2 = { s with qpIter := some q.iter, qpExit := some q.ret, calls := t.calls + 1, ans := some q } ∧
        b.2 = { t with qpIter := some q.iter, qpExit := some q.ret, calls := t.calls + 1, ans := some q })
      (qpoasesSolve e d s init c m k) (qpoasesSolve e' d' t init c' m k) := by
  unfold qpoasesSolve
  rw [h.g, D.lbA, D.ubA, D.lb, D.ub, h.xk, h.yk, h.calls, D.qpoases, D.osqp]
  repeat refine RelM.same fun _ _ => ?_
  rw [hq]
  refine ⟨rfl, _, rfl, ⟨_, _, rfl, rfl⟩, ?_, rfl⟩
  rw [← h.g, ← h.xk, ← h.yk]

theorem subSolve_rel {init : Bool} (D : TwinD F H n d d') (E : TwinE F n d d' e e') (h : Ask F H n s t) :
    RelM (fun a b => a.1 = b.1 ∧ ∃ q, b.1 = (if q.ret ≠ 0 then .subproblemSolverError else .successfulReturn) ∧
        (q.ret = 0 → (∀ i < n.nV, F (q.x i)) ∧ ∀ i < n.nV + n.nA, F (q.y i)) ∧
        a.2 = { s with qpIter := some q.iter, qpExit := some q.ret, calls := t.calls + 1, ans := some q } ∧
        b.2 = { t with qpIter := some q.iter, qpExit := some q.ret, calls := t.calls + 1, ans := some q })
      (subSolve e d s init) (subSolve e' d' t init) := by
  obtain ⟨c, c', hc, hc', dc, dc', hq⟩ := E.qp
  have key := fun init => qpoasesSolve_rel (init := init) (m := n.nV) (k := n.nA) D h
    (fun k init g lA uA x y lb ub q p => (hq k init g lA uA x y lb ub q p).1)
  have key := (key init).mono (S := fun a b => a.1 = b.1 ∧ ∃ q : Resp α, b.1 = (if q.ret ≠ 0 then .subproblemSolverError else .successfulReturn) ∧
        (q.ret = 0 → (∀ i < n.nV, F (q.x i)) ∧ ∀ i < n.nV + n.nA, F (q.y i)) ∧
        a.2 = { s with qpIter := some q.iter, qpExit := some q.ret, calls := t.calls + 1, ans := some q } ∧
        b.2 = { t with qpIter := some q.iter, qpExit := some q.ret, calls := t.calls + 1, ans := some q }) (by
    rintro a b ⟨h1, q, h2, ⟨k, rq, h3, h4⟩, h5⟩
    refine ⟨h1, q, h2, ?_, h5⟩
    cases rq
    subst h4 h3
    exact (hq _ _ _ _ _ _ _ _ _ _ _).2)
  unfold subSolve
  rw [hc, hc', initd_some, initd_some, ok_bind, ok_bind]
  cases dc <;> cases dc' <;> exact key

theorem getSolution_rel (E : TwinE F n d d' e e') {q : Resp α} (hs : s.ans = some q) (hx : Has s.xnew n.nV)
    (hy : Has s.yk (n.nV + n.nA)) : getSolution d s = .ok (tab n.nV q.x, tab (n.nV + n.nA) q.y) := by
  obtain ⟨c, c', hc, hc', dc, dc', hq⟩ := E.qp
  obtain ⟨x, hx, lx⟩ := hx
  obtain ⟨y, hy, ly⟩ := hy
  unfold getSolution
  rw [hc, hs, hx, hy]
  cases dc <;> simp only [initd_some, deref_some, ok_bind, fillAns_ok _ lx, fillAns_ok _ ly]

theorem getSolution_rel' (E : TwinE F n d d' e e') {q : Resp α} (hs : s.ans = some q) (hx : Has s.xnew n.nV)
    (hy : Has s.yk (n.nV + n.nA)) : getSolution d' s = .ok (tab n.nV q.x, tab (n.nV + n.nA) q.y) := by
  obtain ⟨c, c', hc, hc', dc, dc', hq⟩ := E.qp
  obtain ⟨x, hx, lx⟩ := hx
  obtain ⟨y, hy, ly⟩ := hy
  unfold getSolution
  rw [hc', hs, hx, hy]
  cases dc' <;> simp only [initd_some, deref_some, ok_bind, fillAns_ok _ lx, fillAns_ok _ ly]

theorem solveQP_rel {init : Bool} (hF : Closed F) (D : TwinD F H n d d') (E : TwinE F n d d' e e')
    (h : Ask F H n s t) :
    RelM (fun a b => a.1 = b.1 ∧ Core H a.2 b.2 ∧ (b.1 = .successfulReturn → Told F H n s t a.2 b.2))
      (solveQP e d s init) (solveQP e' d' t init) := by
  unfold solveQP
  refine (subSolve_rel D E h).bind ?_
  rintro ⟨ra, a⟩ ⟨rb, b⟩ ⟨h1, q, h2, h3, h4, h5⟩
  dsimp only at h1 h2 h4 h5 ⊢
  subst h1
  have hc : Core H a b := by
    subst h4 h5
    constructor <;> first | rfl | (core0_of h.toCore0)
  have ba : Bufs n a := by
    subst h4
    bufs_of h.b
  have bb : Bufs n b := by
    subst h5
    bufs_of h.b'
  obtain ⟨x, hx, vx⟩ := h.x
  have hxb : b.xk = some x := by subst h5; exact hx
  have hya : HasOpt b.yk (n.nV + n.nA) := by subst h5; exact h.y
  have hqa : a.ans = some q := by subst h4; rfl
  have hqb : b.ans = some q := by subst h5; rfl
  have hro : b.rho = t.rho := by subst h5; rfl
  have hal : b.alpha = t.alpha := by subst h5; rfl
  have hgt : b.gTilde = t.gTilde := by subst h5; rfl
  have hhs : a.hs = s.hs := by subst h4; rfl
  have hhs' : b.hs = t.hs := by subst h5; rfl
  clear h4 h5
  have hy : Has (some (b.yk.getD (e'.alloc 13 (n.nV + n.nA)))) (n.nV + n.nA) := by
    rcases hya with hy | ⟨y, hy, ly⟩
    · exact ⟨_, rfl, by rw [hy]; simp [Env.alloc]⟩
    · exact ⟨_, rfl, by rw [hy]; simpa using ly⟩
  have hal12 : ∀ k m, e.alloc k m = e'.alloc k m := fun k m => by rw [Env.alloc, Env.alloc, E.junk]
  simp only [afterSolve, hc.qpIter, hc.qpExit, hc.stats, D.dims, D.dims', D.nDuals, D.nDuals', initd_some, ok_bind,
    hc.xk, hxb, hc.yk, hal12, Option.getD_some, bind_assoc]
  refine RelM.same fun it _ => RelM.same fun ex _ => RelM.same fun st _ => ?_
  obtain ⟨y, hy, ly⟩ := hy
  injection hy with hy
  rw [hy]
  split
  · refine ⟨rfl, ?_, fun hh => absurd hh (by assumption)⟩
    core_of hc
  · rename_i hret
    push Not at hret
    have hret0 : q.ret = 0 := by
      by_contra hne
      rw [h2, if_pos hne] at hret
      cases hret
    obtain ⟨fx, fy⟩ := h3 hret0
    obtain ⟨oa, hoa, loa⟩ := ba.ykA
    obtain ⟨ob, hob, lob⟩ := bb.ykA
    obtain ⟨pa, hpa, lpa⟩ := ba.pk
    obtain ⟨pb, hpb, lpb⟩ := bb.pk
    have hcp : ∀ o : List α, o.length = n.nA →
        loop n.nA (fun i b => do let v ← rd (tab (n.nV + n.nA) q.y) (n.nV + i); wr b i v) o =
          .ok (tab n.nA fun i => q.y (n.nV + i)) := by
      intro o lo
      refine loop_fill (fun i => q.y (n.nV + i)) n.nA _ o lo ?_
      intro i hi
      rw [rd_ok (by simp; omega), ok_bind, wr_ok (by simp; omega), gt_tab _ (by omega)]
    have hw : ∀ o : List α, o.length = n.nV → weightedVecAdd one (.buf (tab n.nV q.x)) (-. one) (.buf x) o n.nV =
        .ok (tab n.nV fun i => one *. q.x i +. -. one *. gt x i) := by
      intro o lo
      rw [weightedVecAdd_ok (m := n.nV) (a := .buf (tab n.nV q.x)) (b := .buf x) (by simp [Src.val]) vx.1 lo]
      congr 1
      apply tab_congr
      intro i hi
      simp only [Src.val, gt_tab _ hi]
    have v1 : VecF F (n.nV + n.nA) (tab (n.nV + n.nA) q.y) := VecF.tab fy
    have v2 : VecF F n.nA (tab n.nA fun i => q.y (n.nV + i)) := VecF.tab fun i hi => fy _ (by omega)
    have v3 : VecF F n.nV (tab n.nV fun i => one *. q.x i +. -. one *. gt x i) := VecF.tab fun i hi =>
      hF.add _ _ (hF.mul _ _ (hF.lit _ _) (fx i hi)) (hF.mul _ _ (hF.neg _ (hF.lit _ _)) (vx.2 i hi))
    simp only [takeSolution, D.dims, D.dims', D.boxOff, D.boxOff', initd_some, ok_bind]
    rw [getSolution_rel (q := q) E, getSolution_rel' (q := q) E]
    rotate_left
    · exact hqb
    · exact bb.xnew
    · exact ⟨y, rfl, ly⟩
    · exact hqa
    · exact ba.xnew
    · exact ⟨y, rfl, ly⟩
    simp only [hoa, hob, hpa, hpb, deref_some, ok_bind, hcp oa loa, hcp ob lob, hw pa lpa, hw pb lpb]
    refine ⟨rfl, ?_, fun _ => ?_⟩
    · core_of hc
    · constructor <;> first
        | (core_of hc) | (bufs_of ba) | (bufs_of bb) | exact ⟨_, rfl, v1⟩ | exact ⟨_, rfl, rfl, v3⟩
        | exact ⟨_, rfl, rfl, v2⟩ | exact hx.symm | exact hro | exact hal | exact hgt | exact hhs | exact hhs'

/-! ## the rest of the loop body -/

theorem perturbLoop_val (k m : Nat) {x : List α} (h : x.length = m) :
    perturbLoop e k m x = .ok (tab m fun i => gt x i +. ofInt ((e.rnd (k + i) % 3 : Nat) - 1) *. eps) := by
  unfold perturbLoop
  refine loop_fill _ m _ x h ?_
  intro i hi
  rw [rd_ok (by simp; omega), ok_bind, wr_ok (by simp; omega), gt_pre _ _ _ (by omega), if_neg (by omega)]

theorem perturbIf_rel (hF : Closed F) (D : TwinD F H n d d') (E : TwinE F n d d' e e') (h : Alike F n W H P r s t) :
    RelM (Alike F n W H P r) (perturbIf e d s) (perturbIf e' d' t) := by
  unfold perturbIf
  rw [D.perturb]
  split
  · obtain ⟨x, hx, vx⟩ := h.x
    simp only [perturbStep, D.dims, D.dims', h.xk, hx, initd_some, deref_some, ok_bind, perturbLoop_val _ _ vx.1,
      h.rnd, E.rnd]
    have : VecF F n.nV (tab n.nV fun i => gt x i +. ofInt ((e'.rnd (t.rnd + i) % 3 : Nat) - 1) *. eps) :=
      VecF.tab fun i hi => hF.add _ _ (vx.2 i hi) (hF.mul _ _ (hF.lit _ _) (hF.lit _ _))
    alike_of h
  · exact h

theorem getOptimalStepLength_rel (hF : Closed F) (D : TwinD F H n d d') (hW : TwinQ F n d d' W0 W)
    (h : Alike F n W H P r s t) :
    RelM (Alike F n W H P r) (getOptimalStepLength d s) (getOptimalStepLength d' t) := by
  obtain ⟨p, hp, hp', vp⟩ := h.p
  obtain ⟨x, hx, vx⟩ := h.x
  obtain ⟨g, hg, vg⟩ := h.gT
  obtain ⟨o, ho, lo⟩ := h.b.lkTmp
  obtain ⟨o', ho', lo'⟩ := h.b'.lkTmp
  have hsq := hW.sq r _ _ h.rF h.hs
  obtain ⟨q, fq, h1, h2⟩ := hsq.quad p vp
  obtain ⟨v, vv, h3, h4⟩ := hsq.affine one x g o o' (hF.lit _ _) vx vg lo lo'
  simp only [St.hs] at h1 h2 h3 h4
  have hdot := dotProd_ok (a := p) (b := v) (m := n.nV) (by rw [vp.1]) (by rw [vv.1])
  have fdot : F (facc zero n.nV fun i => gt p i *. gt v i) :=
    hF.facc (hF.lit _ _) fun i hi => hF.mul _ _ (vp.2 i hi) (vv.2 i hi)
  generalize facc zero n.nV (fun i => gt p i *. gt v i) = l at hdot fdot
  simp only [getOptimalStepLength, D.dims, D.dims', hp, hp', h.xk, hx, h.gTilde, hg, ho, ho', initd_some, deref_some,
    ok_bind, h1, h2, h3, h4, hdot]
  have fa : F (if ((zero <. q) && (l <. zero)) = true then stdMin ((-. l) /. q) one else one) := by
    split
    · rename_i hq
      rw [Bool.and_eq_true] at hq
      unfold stdMin
      split
      · exact hF.lit _ _
      · exact hF.div _ _ (hF.neg _ fdot) fq hq.1
    · exact hF.lit _ _
  alike_of h

theorem nextStep_rel (hF : Closed F) (D : TwinD F H n d d') (E : TwinE F n d d' e e') (hW : TwinQ F n d d' W0 W)
    (h : Alike F n W H P r s t) :
    RelM (StepR H fun s t => ∃ r, Alike F n W H False r s t) (nextStep e d s) (nextStep e' d' t) := by
  unfold nextStep
  refine (h.linear D).bind fun a b ⟨h, hg⟩ => ?_
  have hask : Ask F H n a b := { h with
    g := hg
    y := by obtain ⟨v, hv, vv⟩ := h.y; exact Or.inr ⟨v, hv, vv.1⟩ }
  refine (solveQP_rel hF D E hask).bind fun u v ⟨h1, h2, h3⟩ => ?_
  rw [h1]
  split
  · exact ⟨rfl, h2.say _⟩
  rename_i hret
  push Not at hret
  have h4 := h3 hret
  have h5 : Alike F n W H False r u.2 v.2 := { h4 with
    hs := by rw [h4.hs, h4.hs']; exact h.hs
    rr := by rw [h4.rr]; exact h.rr
    rF := h.rF
    a := by rw [h4.a]; exact h.a
    gT := by rw [h4.gT]; exact h.gT
    x := by rw [h4.x]; exact h.x
    st := False.elim }
  refine (perturbIf_rel hF D E h5).bind fun _ _ h => ?_
  exact (getOptimalStepLength_rel hF D hW h).bind fun _ _ h => ⟨_, h⟩

theorem pass_rel (hF : Closed F) (D : TwinD F H n d d') (E : TwinE F n d d' e e') (hW : TwinQ F n d d' W0 W)
    (h : Alike F n W H False r s t) :
    RelM (StepR H fun s t => ∃ r, Alike F n W H False r s t) (pass e d s) (pass e' d' t) := by
  unfold pass
  refine (advance_rel hF D hW h).bind fun _ _ h => ?_
  refine (dynamicPenalty_rel hF D hW h).bind fun _ _ ⟨_, h⟩ => ?_
  refine (h.linear D).bind fun _ _ ⟨h, _⟩ => ?_
  refine andThen_rel (checkStationarity_rel hF D hW E.junk h) fun _ _ ⟨_, h⟩ => ?_
  refine andThen_rel (checkLimits_rel D h) fun _ _ h => ?_
  exact nextStep_rel hF D E hW h

/-- the two main loops return the same, as far as one can see -/
theorem mainLoop_rel (hF : Closed F) (D : TwinD F H n d d') (E : TwinE F n d d' e e') (hW : TwinQ F n d d' W0 W)
    (fuel : Nat) (h : Alike F n W H False r s t) :
    RelM (Option.Rel fun a b => a.1 = b.1 ∧ Core H a.2 b.2) (mainLoop e d fuel s) (mainLoop e' d' fuel t) := by
  induction fuel generalizing r s t with
  | zero => exact Option.Rel.none
  | succ f ih =>
    unfold mainLoop
    refine (pass_rel hF D E hW h).bind fun a b hab => ?_
    cases a <;> cases b
    · obtain ⟨_, h⟩ := hab
      exact ih h
    · exact hab.elim
    · exact hab.elim
    · exact Option.Rel.some hab

/-! ## the start -/

/-- states before the first QP -/
structure Begin (F : α → Prop) (H : Prop) (n : Dims) (W0 : Hs α → Hs α → Prop) (s t : St α) : Prop
    extends Core0 H s t where
  b : Bufs n s
  b' : Bufs n t
  hs : W0 s.hs t.hs
  rr : ∃ r, t.rho = some r ∧ F r
  a : ∃ a, t.alpha = some a ∧ F a
  gT : ∃ v, t.gTilde = some v ∧ VecF F n.nV v
  x : ∃ v, t.xk = some v ∧ VecF F n.nV v
  y : HasOpt t.yk (n.nV + n.nA)

theorem firstGradient_rel (D : TwinD F H n d d') (h : Begin F H n W0 s t) :
    ∃ v, v.length = n.nV ∧ firstGradient d s = .ok { s with gk := some v } ∧
      firstGradient d' t = .ok { t with gk := some v } := by
  unfold firstGradient
  rw [D.zeroFirst]
  split
  · obtain ⟨g, hg, vg⟩ := D.gV
    obtain ⟨o, ho, lo⟩ := h.b.gk
    obtain ⟨o', ho', lo'⟩ := h.b'.gk
    have hc : ∀ o : List α, o.length = n.nV →
        loop n.nV (fun i b => do let v ← rd g i; wr b i v) o = .ok (tab n.nV (gt g)) := by
      intro o lo
      refine loop_fill (gt g) n.nV _ o lo ?_
      intro i hi
      rw [rd_ok (by rw [vg.1]; omega), ok_bind, wr_ok (by simp; omega)]
    refine ⟨tab n.nV (gt g), by simp, ?_, ?_⟩
    · simp only [D.dims, D.g, hg, ho, initd_some, deref_some, ok_bind, hc o lo]
    · simp only [D.dims', hg, ho', initd_some, deref_some, ok_bind, hc o' lo']
  · obtain ⟨r, hr, fr⟩ := h.rr
    exact updateLinearization_rel D h.toCore0 hr fr h.x h.gT h.b.gk h.b'.gk

theorem firstStep_rel (hF : Closed F) (D : TwinD F H n d d') (E : TwinE F n d d' e e') (hW : TwinQ F n d d' W0 W)
    (h : Begin F H n W0 s t) :
    RelM (StepR H fun s t => ∃ r, Alike F n W H False r s t) (firstStep e d s) (firstStep e' d' t) := by
  obtain ⟨v, lv, h1, h2⟩ := firstGradient_rel D h
  obtain ⟨r, hr, fr⟩ := h.rr
  unfold firstStep
  rw [h1, h2, ok_bind, ok_bind]
  have hask : Ask F H n { s with gk := some v } { t with gk := some v } := { h with
    toCore0 := by core0_of h.toCore0
    b := by bufs_of h.b
    b' := by bufs_of h.b'
    g := rfl }
  refine (solveQP_rel hF D E hask).bind fun u w ⟨h1, h2, h3⟩ => ?_
  rw [h1]
  split
  · exact ⟨rfl, h2.say _⟩
  rename_i hret
  push Not at hret
  have h4 := h3 hret
  have hr' : w.2.rho = some r := h4.rr.trans hr
  obtain ⟨a, a', q1, q2, q3⟩ := hW.set r u.2 w.2 fr (h4.rho.trans hr') hr' (by
    rw [h4.hs, h4.hs']; exact h.hs)
  rw [q1, q2, ok_bind, ok_bind]
  have e1 : (u.2.setHs a).rho = some r := h4.rho.trans hr'
  have e2 : (w.2.setHs a').rho = some r := hr'
  have e3 : (u.2.setHs a).stats = w.2.stats := h4.stats
  have e4 : (w.2.setHs a').stats = w.2.stats := rfl
  rw [e1, e2, initd_some, ok_bind, ok_bind, e3, e4]
  refine ⟨r, ?_⟩
  have g1 := h4.y
  have g2 := h4.p
  have g3 := h4.ya
  have g4 : ∃ x, w.2.xk = some x ∧ VecF F n.nV x := by rw [h4.x]; exact h.x
  have g5 : ∃ x, w.2.alpha = some x ∧ F x := by rw [h4.a]; exact h.a
  have g6 : ∃ x, w.2.gTilde = some x ∧ VecF F n.nV x := by rw [h4.gT]; exact h.gT
  constructor <;> first
    | (core_of h4.toCore) | (bufs_of h4.b) | (bufs_of h4.b') | exact q3 | exact e2 | exact fr | exact g5 | exact g6
    | exact g4 | exact g1 | exact g2 | exact g3 | exact False.elim

/-- From related states on the two runs return the same, as far as one can see. -/
theorem start_rel (hF : Closed F) (D : TwinD F H n d d') (E : TwinE F n d d' e e') (hW : TwinQ F n d d' W0 W)
    (fuel : Nat) {o o' : Obj α} {i i' : RV × Obj α} (hi : initializeSolver e o = .ok i)
    (hi' : initializeSolver e' o' = .ok i') (hr : i.1 = .successfulReturn) (hr' : i'.1 = .successfulReturn)
    (hd : i.2.d = d) (hd' : i'.2.d = d') (h : Begin F H n W0 i.2.s i'.2.s) :
    RelM (Option.Rel fun a b => a.1 = b.1 ∧ Core H a.2.s b.2.s) (runSolver e fuel o) (runSolver e' fuel o') := by
  unfold runSolver
  rw [hi, hi', ok_bind, ok_bind, if_neg (by simp [hr]), if_neg (by simp [hr']), hd, hd']
  refine (firstStep_rel hF D E hW h).bind fun a b hab => ?_
  cases a <;> cases b
  · obtain ⟨_, h⟩ := hab
    refine (mainLoop_rel hF D E hW fuel h).bind fun a b hab => ?_
    cases hab
    · rename_i hab
      exact Option.Rel.some hab
    · exact Option.Rel.none
  · exact hab.elim
  · exact hab.elim
  · exact Option.Rel.some hab

end LCQ
