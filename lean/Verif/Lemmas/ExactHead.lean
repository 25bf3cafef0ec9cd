import Verif.Lemmas.ExactEnd
import Verif.Spec.Reach
import Verif.Props.SafetySparse

/-!
# Exact arithmetic: all states of a run
-/

set_option linter.unusedSectionVars false

namespace LCQ
open Scalar Ext
open scoped Matrix

/-- the last pass of a successful run -/
theorem run_last {α : Type} [Scalar α] {e : Env α} {fuel : Nat} {o o' : Obj α} (h : runSolver e fuel o = .ok (some (.successfulReturn, o'))) :
    ∃ s, AtHead e o o'.d s ∧ pass e o'.d s = .ok (.inr (.successfulReturn, o'.s)) := by
  obtain ⟨i, hi, ⟨hne, hr⟩ | ⟨hs, hd, hf | ⟨s0, hf, hm⟩⟩⟩ := runSolver_inv h
  · injection hr with hr _
    exact absurd hr.symm hne
  · exfalso
    dsimp only at hf
    obtain ⟨gk, q, hq, ⟨h1, h2⟩ | ⟨_, _, _, _, _, _, ⟨⟩⟩⟩ := firstStep_inv hf
    injection h2 with h2
    injection h2 with h2 _
    exact h1 h2.symm
  · obtain ⟨t, ht, hp⟩ := mainLoop_reach hm
    dsimp only at hd
    rw [hd]
    exact ⟨t, ⟨s0, ⟨i, hi, hs, rfl, hf⟩, ht⟩, hp⟩

variable {K : Type} [Field K] [LinearOrder K] {n : Dims} {P : Prob K n}

/-- A loaded object holding the finite problem `P` with the finite initial guess `x0`, a finite initial penalty `r0`
and a finite non-zero update factor `f`, in a world in which the entries of successful QP answers are finite. -/
structure Setup (e : Env (Ext K)) (o : Obj (Ext K)) (n : Dims) (P : Prob K n) (x0 : Fin n.nV → K) (r0 f : K) : Prop where
  ready : Ready o n
  holds : Holds o n P
  x0 : o.s.xk = some (ev x0)
  rho0 : o.d.opts.rho0 = fin r0
  factor : o.d.opts.factor = fin f
  f0 : f ≠ 0
  ans : FinAns e

/-! ## loading -/

/-- a pointer argument with at least `m` finite entries, the first `m` of which are those of `v` -/
def ArgVec (b : Option (List (Ext K))) (m : Nat) (v : Fin m → K) : Prop :=
  ∃ l : List K, b = some (emb l) ∧ m ≤ l.length ∧ vec m l = v

/-- a pointer argument holding a matrix row by row -/
def ArgMat (b : Option (List (Ext K))) (m k : Nat) (Mx : Matrix (Fin m) (Fin k) K) : Prop :=
  ∃ l : List K, b = some (emb l) ∧ m * k ≤ l.length ∧ mat m k l = Mx

/-- the lower complementarity bounds: both given or both missing (then zero) -/
def ArgLow (bL bR : Option (List (Ext K))) (m : Nat) (l r : Fin m → K) : Prop :=
  (bL = none ∧ bR = none ∧ l = 0 ∧ r = 0) ∨ (ArgVec bL m l ∧ ArgVec bR m r)

/-- an optional vector argument, missing means zero -/
def ArgOpt (b : Option (List (Ext K))) (m : Nat) (v : Fin m → K) : Prop := (b = none ∧ v = 0) ∨ ArgVec b m v

/-- the dense arguments describe the problem `P` and the initial guess `x0` -/
structure DenseArgs.Are (a : DenseArgs (Ext K)) (n : Dims) (P : Prob K n) (x0 : Fin n.nV → K) : Prop where
  fits : a.Fits n
  Q : ArgMat a.Q n.nV n.nV P.Q
  g : ArgVec a.g n.nV P.g
  A : (a.A = none ∧ n.nC = 0) ∨ ArgMat a.A n.nC n.nV P.A
  L : ArgMat a.L n.nComp n.nV P.L
  R : ArgMat a.R n.nComp n.nV P.R
  low : ArgLow a.lbL a.lbR n.nComp P.lbL P.lbR
  x0 : ArgOpt a.x0 n.nV x0

/-- the sparse arguments describe the problem `P` and the initial guess `x0`; no entry of the complementarity Hessian
is so small that it is dropped -/
structure SparseArgs.Are (a : SparseArgs (Ext K)) (n : Dims) (P : Prob K n) (x0 : Fin n.nV → K) : Prop where
  fits : a.Fits n
  Q : ∃ S : CSC K, a.Q = some S.emb ∧ S.den n.nV n.nV = P.Q
  g : ArgVec a.g n.nV P.g
  A : (a.A = none ∧ P.A = 0) ∨ ∃ S : CSC K, a.A = some S.emb ∧ S.den n.nC n.nV = P.A
  L : ∃ S : CSC K, a.L = some S.emb ∧ S.Sorted ∧ S.den n.nComp n.nV = P.L
  R : ∃ S : CSC K, a.R = some S.emb ∧ S.Sorted ∧ S.den n.nComp n.nV = P.R
  low : ArgLow a.lbL a.lbR n.nComp P.lbL P.lbR
  x0 : ArgOpt a.x0 n.nV x0
  tiny : ∀ i j, P.C i j = 0 ∨ 1 / 10 ^ 25 < |P.C i j|

/-- an object without lower complementarity bounds from earlier use -/
structure NoLow (o : Obj (Ext K)) : Prop where
  lbL : o.d.lbL = none
  lbR : o.d.lbR = none
  gPhi : o.d.gPhi = none
  phiConst : o.d.phiConst = fin 0

theorem ArgVec.take {b : Option (List (Ext K))} {m : Nat} {v : Fin m → K} (h : ArgVec b m v) :
    ∃ l, b = some l ∧ m ≤ l.length ∧ l.take m = ev v := by
  obtain ⟨l, rfl, hl, hv⟩ := h
  refine ⟨_, rfl, by simpa using hl, ?_⟩
  rw [take_emb]
  exact emb_eq_ev (by simpa using hl) (by rw [vec_take]; exact hv)

theorem argOpt_fill {b : Option (List (Ext K))} {m : Nat} {v : Fin m → K} (h : ArgOpt b m v) : orFill b m zero = ev v := by
  rcases h with ⟨rfl, rfl⟩ | h
  · simp only [orFill, zero_fin, ev, emb, List.map_ofFn]
    rw [← List.ofFn_const]
    rfl
  · obtain ⟨l, rfl, _, h⟩ := h.take
    simpa [orFill] using h

theorem argLow_pair {bL bR : Option (List (Ext K))} {m : Nat} {l r : Fin m → K} (h : ArgLow bL bR m l r) :
    bL = none ↔ bR = none := by
  rcases h with ⟨rfl, rfl, _⟩ | ⟨⟨_, rfl, _⟩, ⟨_, rfl, _⟩⟩ <;> simp

theorem low_of {o o' : Obj (Ext K)} {bL bR : Option (List (Ext K))} (h : ArgLow bL bR n.nComp P.lbL P.lbR) (hl : NoLow o)
    (h1 : o'.d.lbL = bndMem bL o.d.lbL n.nComp) (h2 : o'.d.lbR = bndMem bR o.d.lbR n.nComp)
    (h3 : o'.d.gPhi = o.d.gPhi) (h4 : o'.d.phiConst = o.d.phiConst) :
    (o'.d.lbL = none ∧ o'.d.lbR = none ∧ P.lbL = 0 ∧ P.lbR = 0 ∧ o'.d.gPhi = none ∧ o'.d.phiConst = .fin 0) ∨
    (VecIs o'.d.lbL n.nComp P.lbL ∧ VecIs o'.d.lbR n.nComp P.lbR) := by
  rcases h with ⟨rfl, rfl, h5, h6⟩ | ⟨h5, h6⟩
  · left
    rw [h1, h2, h3, h4]
    exact ⟨hl.lbL, hl.lbR, h5, h6, hl.gPhi, hl.phiConst⟩
  · right
    obtain ⟨l, rfl, _, h5⟩ := h5.take
    obtain ⟨r, rfl, _, h6⟩ := h6.take
    rw [vecIs_iff, vecIs_iff, h1, h2]
    simp only [bndMem, reduceCtorEq, if_false, Option.map_some, h5, h6, and_self]

/-- dense loading of a finite problem, with the lower complementarity bounds `l`, `r` which the object then holds -/
theorem Setup.dense_low [IsStrictOrderedRing K] {e : Env (Ext K)} {o o' : Obj (Ext K)} {a : DenseArgs (Ext K)} {x0 : Fin n.nV → K} {r0 f : K}
    (hb : Built o n) {l r : Fin n.nComp → K} (hl : ∀ o' : Obj (Ext K), o'.d.lbL = bndMem a.lbL o.d.lbL n.nComp →
      o'.d.lbR = bndMem a.lbR o.d.lbR n.nComp → o'.d.gPhi = o.d.gPhi → o'.d.phiConst = o.d.phiConst →
      (o'.d.lbL = none ∧ o'.d.lbR = none ∧ l = 0 ∧ r = 0 ∧ o'.d.gPhi = none ∧ o'.d.phiConst = .fin 0) ∨
      (VecIs o'.d.lbL n.nComp l ∧ VecIs o'.d.lbR n.nComp r)) (ha : a.Are n P x0)
    (h : loadDense e o a = .ok (.successfulReturn, o')) (hr : o.d.opts.rho0 = fin r0) (hf : o.d.opts.factor = fin f)
    (f0 : f ≠ 0) (he : FinAns e) : Setup e o' n { P with lbL := l, lbR := r } x0 r0 f ∧ o'.d.sparse = false := by
  obtain ⟨h1, h2, h3⟩ := hb.load ha.fits (argLow_pair ha.low) h
  obtain ⟨Q, hQ, lQ, eQ⟩ := ha.Q
  obtain ⟨L, hL, lL, eL⟩ := ha.L
  obtain ⟨R, hR, lR, eR⟩ := ha.R
  have hA : ∃ A : List K, (a.A = some (emb A) ∨ (a.A = none ∧ A = [])) ∧ mat n.nC n.nV A = P.A := by
    rcases ha.A with ⟨h, h0⟩ | ⟨A, hA, _, eA⟩
    · exact ⟨[], Or.inr ⟨h, rfl⟩, by ext i; have := i.2; omega⟩
    · exact ⟨A, Or.inl hA, eA⟩
  obtain ⟨A, hA, eA⟩ := hA
  have hm := C14_matrices e o o' n a Q L R A hb.dims hb.nV hb.nComp ha.fits hQ hL hR hA h
  obtain ⟨c, hc, lc, ec⟩ := C14_hessian e o o' n a L R hb.dims hb.nV hb.nComp ha.fits hL hR h
  rw [eQ, eA, eL, eR] at hm
  rw [eL, eR] at ec
  have hC : MatIs o'.d.sparse o'.d.C o'.d.Cs n.nV n.nV P.C := by
    rw [h3]
    exact ⟨c, hc, lc, ec⟩
  refine ⟨⟨h1, ⟨h1.dims, hm, hC, ?_, ?_⟩, ?_, by rw [h2, hr], by rw [h2, hf], f0, he⟩, h3⟩
  all_goals
    rcases loadDense_ok (e := e) hb.dims hb.nV hb.nComp ha.fits with ⟨_, _, h'⟩ | ⟨_, _, _, h'⟩ | ⟨_, _, _, _, h'⟩ |
      ⟨_, _, _, _, Q', g, L', R', hQ', hg, hL', hR', _, _, _, _, h'⟩
    · rw [h'] at h; injection h with h; injection h with h _; cases h
    · rw [h'] at h; injection h with h; injection h with h _; cases h
    · rw [h'] at h; injection h with h; injection h with h _; cases h
    rw [h'] at h
    injection h with h
    injection h with _ h
    subst h
  · obtain ⟨l, hgl, _, hl⟩ := ha.g.take
    rw [hg] at hgl
    injection hgl with hgl
    subst hgl
    rw [vecIs_iff]
    exact congrArg some hl
  · exact hl _ rfl rfl rfl rfl
  · exact congrArg some (argOpt_fill ha.x0)

/-- dense loading of a finite problem into a new object (or one that holds no lower complementarity bounds) -/
theorem Setup.dense [IsStrictOrderedRing K] {e : Env (Ext K)} {o o' : Obj (Ext K)} {a : DenseArgs (Ext K)} {x0 : Fin n.nV → K} {r0 f : K}
    (hb : Built o n) (hl : NoLow o) (ha : a.Are n P x0)
    (h : loadDense e o a = .ok (.successfulReturn, o')) (hr : o.d.opts.rho0 = fin r0) (hf : o.d.opts.factor = fin f)
    (f0 : f ≠ 0) (he : FinAns e) : Setup e o' n P x0 r0 f ∧ o'.d.sparse = false := by
  exact Setup.dense_low hb (fun o' h1 h2 h3 h4 => low_of ha.low hl h1 h2 h3 h4) ha h hr hf f0 he

/-- sparse loading of a finite problem -/
theorem Setup.sparse [IsStrictOrderedRing K] {e : Env (Ext K)} {o o' : Obj (Ext K)} {a : SparseArgs (Ext K)} {x0 : Fin n.nV → K} {r0 f : K}
    (hb : Built o n) (hi : o.s.idxC = []) (hl : NoLow o) (ha : a.Are n P x0)
    (h : loadSparse e o a = .ok (.successfulReturn, o')) (hr : o.d.opts.rho0 = fin r0) (hf : o.d.opts.factor = fin f)
    (f0 : f ≠ 0) (he : FinAns e) : Setup e o' n P x0 r0 f ∧ o'.d.sparse = true := by
  obtain ⟨h1, h2, h3, _⟩ := hb.loadSparse hi ha.fits (argLow_pair ha.low) h
  obtain ⟨Q, hQ, eQ⟩ := ha.Q
  obtain ⟨L, hL, sL, eL⟩ := ha.L
  obtain ⟨R, hR, sR, eR⟩ := ha.R
  have hA : ∃ A : Option (CSC K), a.A = A.map CSC.emb ∧ denOpt A n.nC n.nV = P.A := by
    rcases ha.A with ⟨h, h0⟩ | ⟨A, hA, eA⟩
    · exact ⟨none, h, h0.symm⟩
    · exact ⟨some A, hA, eA⟩
  obtain ⟨A, hA, eA⟩ := hA
  obtain ⟨hm, C, hC, hCe⟩ := C16_matrices e o o' n a Q L R A hb.dims hb.nV hb.nComp ha.fits hQ hL hR hA sL sR h
  rw [eQ, eA, eL, eR] at hm
  rw [eL, eR] at hCe
  have hCC : C = P.C := by
    ext i j
    rw [hCe]
    split
    · rfl
    · rename_i hn
      rcases ha.tiny i j with h0 | h0
      · exact h0.symm
      · exact absurd h0 hn
  subst hCC
  have hC : MatIs o'.d.sparse o'.d.C o'.d.Cs n.nV n.nV P.C := by
    rw [h3]
    exact hC
  refine ⟨⟨h1, ⟨h1.dims, hm, hC, ?_, ?_⟩, ?_, by rw [h2, hr], by rw [h2, hf], f0, he⟩, h3⟩
  all_goals
    obtain ⟨Q', L', R', C', hQ', hL', hR', iQ, iL, iR, hCs, hCi, h'⟩ := loadSparse_ok (e := e) hb.dims hb.nV hb.nComp ha.fits
    rcases h' with ⟨_, _, h'⟩ | ⟨_, _, _, h'⟩ | ⟨_, _, _, _, h'⟩ | ⟨_, _, g, c, hg, lg, hc, h'⟩
    · rw [h'] at h; injection h with h; injection h with h _; cases h
    · rw [h'] at h; injection h with h; injection h with h _; cases h
    · rw [h'] at h; injection h with h; injection h with h _; cases h
    rw [h'] at h
    injection h with h
    injection h with _ h
    subst h
  · obtain ⟨l, hgl, _, hl⟩ := ha.g.take
    rw [hg] at hgl
    injection hgl with hgl
    subst hgl
    rw [vecIs_iff]
    exact congrArg some hl
  · exact low_of ha.low hl rfl rfl rfl rfl
  · exact congrArg some (argOpt_fill ha.x0)

/-! ## heads of the main loop -/

variable {e : Env (Ext K)} {o : Obj (Ext K)} {x0 : Fin n.nV → K} {r0 f : K} {d : Data (Ext K)}

/-- at the head of the main loop all members have their intended values -/
theorem Setup.head (hS : Setup e o n P x0 r0 f) {s : St (Ext K)} (h : AtHead e o d s) :
    ∃ off, DataOK d n off ∧ DataIs d n P off ∧ d.opts = o.d.opts ∧ d.sparse = o.d.sparse ∧
    ∃ (r : K) (b : Bool) (x p : Fin n.nV → K) (a : K) (y : Fin (off + n.nA) → K),
      XSt d n P off s r b x p a y ∧ OutB s b := by
  obtain ⟨s0, h0, h⟩ := h
  obtain ⟨off, h1, h2, h3, h4, v, y, sub, lA, uA, y0, h5, h6, _⟩ :=
    enters_x hS.ready hS.holds hS.x0 hS.rho0 hS.ans h0
  refine ⟨off, h1, h2, h3, h4, ?_⟩
  induction h with
  | start => exact ⟨_, _, _, _, _, _, h5, h6⟩
  | pass _ hp ih =>
    obtain ⟨r, b, x, p, a, y, hx, hb⟩ := ih
    obtain ⟨r', b', c, k, x', v, y', sub, lA, uA, _, hb', _, _, _, _, hx', _⟩ :=
      pass_x h1 h2 hS.ans (by rw [h3]; exact hS.factor) hS.f0 hx hb hp
    exact ⟨_, _, _, _, _, _, hx', hb'⟩

end LCQ
