import Verif.Props.MatlabCall

/-!
# C78, exact arithmetic: what a call of the MATLAB interface returns if its exit flag is zero
-/

namespace LCQ
open Scalar Ext
open scoped Matrix

section
variable {K : Type} [Field K] [LinearOrder K] {n : Dims}

/-! ## the problem of a call -/

/-- the bounds of a call -/
structure Lims (K : Type) (n : Dims) where
  /-- lbA -/
  lbA : Option (Fin n.nC → Ext K)
  /-- ubA -/
  ubA : Option (Fin n.nC → Ext K)
  /-- lbL -/
  lbL : Option (Fin n.nComp → Ext K)
  /-- ubL -/
  ubL : Option (Fin n.nComp → Ext K)
  /-- lbR -/
  lbR : Option (Fin n.nComp → Ext K)
  /-- ubR -/
  ubR : Option (Fin n.nComp → Ext K)
  /-- lb -/
  lb : Option (Fin n.nV → Ext K)
  /-- ub -/
  ub : Option (Fin n.nV → Ext K)

/-- the bounds of a call with full arrays -/
def MexCall.lims (c : MexCall (Ext K) n) : Lims K n :=
  ⟨c.lin.bind (·.2.1), c.lin.bind (·.2.2), c.lbL, c.ubL, c.lbR, c.ubR, c.box.bind (·.1), c.box.bind (·.2)⟩

/-- the bounds of a call with sparse matrices -/
def SpCall.lims (c : SpCall (Ext K) n) : Lims K n :=
  ⟨c.lin.bind (·.2.1), c.lin.bind (·.2.2), c.lbL, c.ubL, c.lbR, c.ubR, c.box.bind (·.1), c.box.bind (·.2)⟩

/-- `v` lies between the bounds `lo` and `hi`, which are `dl` and `du` if they are not given -/
def Between {k : Nat} (lo hi : Option (Fin k → Ext K)) (dl du : Ext K) (v : Fin k → K) : Prop :=
  ∀ i, (lo.getD (fun _ => dl) i <=. fin (v i)) = true ∧ (fin (v i) <=. hi.getD (fun _ => du) i) = true

/-- `x` satisfies all constraints of the call but the complementarity -/
structure Lims.Feas (b : Lims K n) (P : Prob K n) (x : Fin n.nV → K) : Prop where
  A : Between b.lbA b.ubA ninf pinf (P.A *ᵥ x)
  L : Between b.lbL b.ubL (fin 0) pinf (P.L *ᵥ x)
  R : Between b.lbR b.ubR (fin 0) pinf (P.R *ᵥ x)
  box : Between b.lb b.ub ninf pinf x

/-- the lower complementarity bounds of the problem `P` are those of the call -/
def Lims.Low (b : Lims K n) (P : Prob K n) : Prop :=
  (b.lbL = none ∧ b.lbR = none ∧ P.lbL = 0 ∧ P.lbR = 0) ∨ (b.lbL = some (fun i => fin (P.lbL i)) ∧ b.lbR = some (fun i => fin (P.lbR i)))

/-- the call with full arrays describes the problem `P` -/
structure MexCall.Is (c : MexCall (Ext K) n) (P : Prob K n) : Prop where
  Q : c.Q = P.Q.map fin
  g : c.g = fun i => fin (P.g i)
  A : (c.lin = none ∧ n.nC = 0) ∨ ∃ l, c.lin = some l ∧ l.1 = P.A.map fin
  L : c.L = P.L.map fin
  R : c.R = P.R.map fin
  low : c.lims.Low P

/-- the call with sparse matrices describes the problem `P`; the row indices are sorted as MATLAB sorts them; no entry of the
complementarity Hessian is so small that it is dropped -/
structure SpCall.Describes (c : SpCall (Ext K) n) (P : Prob K n) : Prop where
  Q : ∃ S : CSC K, c.Q = S.emb ∧ S.den n.nV n.nV = P.Q
  g : c.g = fun i => fin (P.g i)
  A : (c.lin = none ∧ n.nC = 0) ∨ ∃ l, c.lin = some l ∧ ∃ S : CSC K, l.1 = S.emb ∧ S.den n.nC n.nV = P.A
  L : ∃ S : CSC K, c.L = S.emb ∧ S.Sorted ∧ S.den n.nComp n.nV = P.L
  R : ∃ S : CSC K, c.R = S.emb ∧ S.Sorted ∧ S.den n.nComp n.nV = P.R
  low : c.lims.Low P
  tiny : ∀ i j, P.C i j = 0 ∨ 1 / 10 ^ 25 < |P.C i j|

/-- the bounds as the load functions get them -/
def Lims.bnds (b : Lims K n) : Bnds (Ext K) :=
  ⟨vecArg b.lbA, vecArg b.ubA, vecArg b.lbL, vecArg b.ubL, vecArg b.lbR, vecArg b.ubR, vecArg b.lb, vecArg b.ub⟩

theorem bind_vecArg {β γ : Type} {k : Nat} (b : Option β) (f : β → Option (Fin k → γ)) :
    (b.bind fun l => vecArg (f l)) = vecArg (b.bind f) := by
  cases b with
  | none => simp [vecArg]
  | some b => rfl

omit [Field K] [LinearOrder K] in
theorem MexCall.bnds_eq (c : MexCall (Ext K) n) (x0 y0 : Option (List (Ext K))) : (c.args x0 y0).bnds = c.lims.bnds := by
  simp only [DenseArgs.bnds, MexCall.args, Lims.bnds, MexCall.lims, bind_vecArg]

omit [Field K] [LinearOrder K] in
theorem SpCall.bnds_eq (c : SpCall (Ext K) n) (x0 y0 : Option (List (Ext K))) : (c.args x0 y0).bnds = c.lims.bnds := by
  simp only [SparseArgs.bnds, SpCall.args, Lims.bnds, SpCall.lims, bind_vecArg]

omit [Field K] [LinearOrder K] in
theorem fill_vecArg {k : Nat} (v : Option (Fin k → Ext K)) (d : Ext K) (i : Fin k) :
    (orFill (vecArg v) k d).getD i nan = v.getD (fun _ => d) i := by
  have hk : k ≠ 0 := by have := i.2; omega
  cases v with
  | none => simp [vecArg, orFill, List.getD_eq_getElem?_getD]
  | some v => simp [vecArg, hk, orFill, List.getD_eq_getElem?_getD]

theorem between_iff {k : Nat} {lo hi : Option (Fin k → Ext K)} {dl du : Ext K} {v : Fin k → K} :
    Within (vecArg lo) (vecArg hi) dl du v ↔ Between lo hi dl du v := by
  simp only [Within, Between, fill_vecArg]

theorem lims_feas {b : Lims K n} {P : Prob K n} {x : Fin n.nV → K} : b.bnds.Feas P x ↔ b.Feas P x := by
  constructor
  · intro h
    exact ⟨between_iff.1 h.A, between_iff.1 h.L, between_iff.1 h.R, between_iff.1 h.box⟩
  · intro h
    exact ⟨between_iff.2 h.A, between_iff.2 h.L, between_iff.2 h.R, between_iff.2 h.box⟩

theorem argVec_ofFn {k : Nat} (v : Fin k → K) : ArgVec (some (List.ofFn fun i => fin (v i))) k v :=
  ⟨List.ofFn v, by simp [emb, List.map_ofFn, Function.comp_def], by simp, vec_ofFn v⟩

omit [LinearOrder K] in
theorem argMat_rowMajor {m k : Nat} (A : Matrix (Fin m) (Fin k) K) : ArgMat (some (rowMajor (A.map fin))) m k A := by
  refine ⟨rowMajor A, ?_, by simp, ?_⟩
  · simp [emb, rowMajor, List.map_ofFn, Function.comp_def, Matrix.map_apply]
  · funext i j
    rw [mat, List.getD_eq_getElem?_getD, rowMajor_get]
    rfl

theorem low_args {b : Lims K n} {P : Prob K n} (hC : n.nComp ≠ 0) (h : b.Low P) :
    ArgLow (vecArg b.lbL) (vecArg b.lbR) n.nComp P.lbL P.lbR := by
  rcases h with ⟨h1, h2, h3, h4⟩ | ⟨h1, h2⟩
  · exact .inl ⟨by rw [h1]; simp [vecArg], by rw [h2]; simp [vecArg], h3, h4⟩
  · refine .inr ⟨?_, ?_⟩
    · rw [h1, vecArg, if_neg hC]
      exact argVec_ofFn _
    · rw [h2, vecArg, if_neg hC]
      exact argVec_ofFn _

theorem MexCall.are {c : MexCall (Ext K) n} {P : Prob K n} (hC : n.nComp ≠ 0) (h : c.Is P) (hQ : P.Qᵀ = P.Q)
    {x0 y0 : Option (List (Ext K))} {v : Fin n.nV → K} (hx : ArgOpt x0 n.nV v) (hx' : OptLen x0 n.nV) (hy : OptLen y0 (n.nV + n.nA)) :
    (c.args x0 y0).Are n P v := by
  refine ⟨args_fits c hx' hy, ?_, ?_, ?_, ?_, ?_, low_args hC h.low, hx⟩
  · show ArgMat (some (rowMajor c.Qᵀ)) _ _ _
    rw [h.Q, ← Matrix.transpose_map, hQ]
    exact argMat_rowMajor _
  · show ArgVec (some (List.ofFn c.g)) _ _
    rw [h.g]
    exact argVec_ofFn _
  · show ((if n.nC = 0 then none else c.lin.map fun l => rowMajor l.1) = none ∧ _) ∨ ArgMat (if n.nC = 0 then none else c.lin.map fun l => rowMajor l.1) _ _ _
    by_cases h0 : n.nC = 0
    · exact .inl ⟨if_pos h0, h0⟩
    · rcases h.A with ⟨_, h1⟩ | ⟨l, h1, h2⟩
      · exact absurd h1 h0
      · right
        rw [if_neg h0, h1, Option.map_some, h2]
        exact argMat_rowMajor _
  · show ArgMat (some (rowMajor c.L)) _ _ _
    rw [h.L]
    exact argMat_rowMajor _
  · show ArgMat (some (rowMajor c.R)) _ _ _
    rw [h.R]
    exact argMat_rowMajor _

end

section
variable {K : Type} [Field K] [LinearOrder K] [IsStrictOrderedRing K] {n : Dims}

theorem SpCall.are {c : SpCall (Ext K) n} {P : Prob K n} (hC : n.nComp ≠ 0) (hk : c.OK) (h : c.Describes P)
    {x0 y0 : Option (List (Ext K))} {v : Fin n.nV → K} (hx : ArgOpt x0 n.nV v) (hx' : OptLen x0 n.nV) (hy : OptLen y0 (n.nV + n.nA)) :
    (c.args x0 y0).Are n P v := by
  obtain ⟨Q, hQ, dQ⟩ := h.Q
  obtain ⟨L, hL, sL, dL⟩ := h.L
  obtain ⟨R, hR, sR, dR⟩ := h.R
  have vQ : Q.Valid := emb_valid_iff.1 (hQ ▸ hk.Q.1)
  have vL : L.Valid := emb_valid_iff.1 (hL ▸ hk.L.1)
  have vR : R.Valid := emb_valid_iff.1 (hR ▸ hk.R.1)
  have nQ : Q.n = n.nV := by have := hk.Q.2.2; rw [hQ] at this; exact this
  have nL : L.n = n.nV := by have := hk.L.2.2; rw [hL] at this; exact this
  have nR : R.n = n.nV := by have := hk.R.2.2; rw [hR] at this; exact this
  refine ⟨spArgs_fits c hk hx' hy, ⟨Q.tight, ?_, ?_⟩, ?_, ?_, ⟨L.tight, ?_, tight_sorted vL sL, ?_⟩, ⟨R.tight, ?_, tight_sorted vR sR, ?_⟩,
    low_args hC h.low, hx, h.tiny⟩
  · simp [SpCall.args, hQ, tight_emb]
  · rw [tight_den vQ nQ, dQ]
  · show ArgVec (some (List.ofFn c.g)) _ _
    rw [h.g]
    exact argVec_ofFn _
  · show ((if n.nC = 0 then none else c.lin.map fun l => l.1.tight) = none ∧ _) ∨
      ∃ S : CSC K, (if n.nC = 0 then none else c.lin.map fun l => l.1.tight) = some S.emb ∧ _
    by_cases h0 : n.nC = 0
    · refine .inl ⟨if_pos h0, ?_⟩
      ext i
      have := i.2
      omega
    · rcases h.A with ⟨_, h1⟩ | ⟨l, h1, A, h2, h3⟩
      · exact absurd h1 h0
      · right
        have hA := hk.A l h1
        have vA : A.Valid := emb_valid_iff.1 (h2 ▸ hA.1)
        have nA : A.n = n.nV := by have := hA.2.2; rw [h2] at this; exact this
        refine ⟨A.tight, ?_, ?_⟩
        · rw [if_neg h0, h1, Option.map_some, h2, tight_emb]
        · rw [tight_den vA nA, h3]
  · simp [SpCall.args, hL, tight_emb]
  · rw [tight_den vL nL, dL]
  · simp [SpCall.args, hR, tight_emb]
  · rw [tight_den vR nR, dR]

/-- from a loaded object and an exit flag of zero to the properties of the outputs -/
theorem mex_solved {E : MexEnv (Ext K)} {prhs : List (Mx (Ext K))} {p : Options (Ext K)} {o : Obj (Ext K)} (hl : mexLoad E prhs = .ok (n, p, o))
    (hP : Prepared E.e n true o) (hc : choiceCode p.qpSolver o.d.sparse o.oldBox o.newBox = .successfulReturn) {N : Int}
    (he : ∀ k r, 0 ≤ (E.e.qp k r).iter ∧ (E.e.qp k r).iter ≤ N) (hsm : Small p N)
    (ho : p.qpSolver = 2 → ∀ r, (E.e.qp 0 r).setup = true ∧ (E.e.qp 0 r).warmX = true ∧ (E.e.qp 0 r).warmY = true)
    {P : Prob K n} {x0 : Fin n.nV → K} {r0 f : K} (hS : Setup E.e o n P x0 r0 f) {b : Lims K n} (hb : Stored o n b.bnds)
    (hQ : o.d.sparse = true → P.Qᵀ = P.Q) {ts tc : K} (hts : p.statTol = fin ts) (htc : p.complTol = fin tc) {t : K}
    (hF : NearOn E.e n (IsSub P (b.bnds.rowLo n) (b.bnds.rowHi n) (b.bnds.boxLo n) (b.bnds.boxHi n)) t)
    {fuel : Nat} {out : MexOut (Ext K)} (h : mexFunction E fuel 3 prhs = .ok (some out)) {s : MxStruct (Ext K)} (hs : out.stats = some s)
    (hex : s.lookup "exit_flag" = some [fin 0]) {off : Nat} (hoff : off = if p.qpSolver = 2 then 0 else n.nV) :
    ∃ (k : Nat) (x v : Fin n.nV → K) (y : Fin (off + n.nA) → K), out.x = ev x ∧ out.y = some (ev y) ∧
      s.lookup "iters_total" = some [fin ((k : K) + 1)] ∧ (k : Int) ≤ max 0 p.maxIter ∧ b.Feas P v ∧ (∀ i, |x i - v i| ≤ t + k * epsK) ∧
      P.phi x < tc ∧ (P.gPhi = 0 → ∀ i, |P.residual x y i| < ts) := by
  obtain ⟨q, hq, hnone, hsome⟩ := mex_run hl hP hc he hsm ho (nlhs := 3) (by omega) fuel
  obtain ⟨_, _, hd, hp, _, _⟩ := mexLoad_inv hl
  cases q with
  | none => rw [hnone rfl] at h; cases h
  | some r =>
    obtain ⟨xs, ys, f', hx, lx, hy, ly, hst, h'⟩ := hsome r rfl
    rw [h] at h'
    injection h' with h'
    injection h' with h'
    subst h'
    simp only [outputs] at hs ⊢
    injection hs with hs
    subst hs
    obtain ⟨rv, o'⟩ := r
    have i : ∀ m : Int, (ofInt m : Ext K) = fin (m : K) := fun m => by
      show fin ((m : K) / 10 ^ 0) = _
      simp
    have hrv : rv = .successfulReturn := by
      have := hst "exit_flag" (by simp [statNames]) (.inl (by decide))
      rw [hex] at this
      injection this with this
      injection this with this _
      dsimp only at this
      rw [i] at this
      injection this with this
      exact code_zero (by exact_mod_cast this.symm)
    subst hrv
    have hBB : BoundsAre o n (b.bnds.rowLo n) (b.bnds.rowHi n) (b.bnds.boxLo n) (b.bnds.boxHi n) := by
      refine hb.bounds ?_ ?_
      all_goals
        simp only [Lims.bnds, vecArg]
        intro w hw
        split at hw
        · cases hw
        · obtain ⟨w', _, rfl⟩ := Option.map_eq_some_iff.1 hw
          simp
    obtain ⟨k, x, hk, hkm, hxk, v, hv, hxv⟩ := C37_returned hS hBB hF hq
    obtain ⟨off', r', b', x', y, h0, _, _, hx', hr, _, hy', hphi, _⟩ := success_x hS (hp ▸ hts) (hp ▸ htc) hq
    dsimp only at hx hy ly
    have exs : xs = ev x := by rw [hx] at hxk; injection hxk
    have exx : x' = x := by
      rw [hxk] at hx'
      injection hx' with hx'
      exact (ev_inj hx').symm
    subst exx exs
    have eoff : off' = off := by
      rw [hy] at hy'
      injection hy' with hy'
      rw [hy', ev_length] at ly
      rw [hoff]
      unfold Dims.duals at ly
      simp only [Dims.nA] at ly
      split at ly <;> rename_i h2 <;> simp only [h2, if_true, if_false] <;> omega
    subst eoff
    refine ⟨k, x', v, P.shifted r' x' y, rfl, ?_, ?_, hp ▸ hkm, lims_feas.1 (hb.feas hBB hv), hxv, hphi, ?_⟩
    · rw [hy] at hy'
      exact congrArg some (Option.some.inj hy')
    · have := hst "iters_total" (by simp [statNames]) (.inl (by decide))
      rw [this]
      simp only [scalarOf]
      rw [hk, i]
      simp
    · intro hg
      obtain ⟨off2, x2, y2, hbo, hx2, hy2, hres⟩ := C21_stationary hS (hp ▸ hts) (hp ▸ htc) hQ hq (.inl hg)
      have : off2 = off' := by
        rw [h0.boxOff] at hbo
        injection hbo with hbo
        exact hbo.symm
      subst this
      have e1 : x2 = x' := by
        rw [hx'] at hx2
        exact (ev_inj (Option.some.inj hx2)).symm
      have e2 : y2 = P.shifted r' x' y := by
        rw [hy'] at hy2
        exact (ev_inj (Option.some.inj hy2)).symm
      rw [e1, e2] at hres
      exact hres

/-- the new object into which a call is loaded -/
theorem start_clean (E : MexEnv (Ext K)) (hV : n.nV ≠ 0) (hC : n.nComp ≠ 0) (p : Options (Ext K)) :
    Built (setOptions (Obj.new E.dflt n.nV n.nC n.nComp) p) n ∧ NoLow (setOptions (Obj.new E.dflt n.nV n.nC n.nComp) p) ∧
      (setOptions (Obj.new E.dflt n.nV n.nC n.nComp) p).d.lbTmp = none ∧ (setOptions (Obj.new E.dflt n.nV n.nC n.nComp) p).d.ubTmp = none ∧
      (setOptions (Obj.new E.dflt n.nV n.nC n.nComp) p).s.idxC = [] := by
  have hP : Prepared E.e n false (setOptions (Obj.new E.dflt n.nV n.nC n.nComp) p) :=
    .options _ (.new _ _ _ _ ⟨by omega, by omega, by omega⟩ (by simp))
  have hd : (Obj.new E.dflt n.nV n.nC n.nComp).d = { (Obj.blank E.dflt).d with dims := some n } := by
    simp only [Obj.new]
    rw [if_neg (by omega), if_neg (by omega), if_neg (by omega)]
    simp
  have hs : (Obj.new E.dflt n.nV n.nC n.nComp).s.idxC = [] := by
    simp only [Obj.new]
    rw [if_neg (by omega), if_neg (by omega), if_neg (by omega)]
    rfl
  refine ⟨hP.untouched.1.toBuilt, ⟨?_, ?_, ?_, ?_⟩, ?_, ?_, hs⟩
  all_goals
    simp only [setOptions, hd]
    first | rfl | exact zero_fin

/-- C78 (exact arithmetic): let a call with full arrays describe the problem `P` with symmetric `Q`, and let every answer of the QP
solver be within `t` of a feasible point.  If `stats.exit_flag` is 0, then `x` is within `t + k ε` of a point that satisfies all
constraints but the complementarity, where `k + 1` is `stats.iters_total`; the complementarity violation at `x` is below the
tolerance; and if the lower complementarity bounds have no linear part, `x` and `y` satisfy the stationarity condition up to the
tolerance. -/
theorem C78_solution (E : MexEnv (Ext K)) (c : MexCall (Ext K) n) (hV : n.nV ≠ 0) (hC : n.nComp ≠ 0) {p : Params (Ext K)}
    (hp : c.readParams E = .ok p) {x0 : Fin n.nV → K} (hx : ArgOpt p.x0 n.nV x0) (hx' : OptLen p.x0 n.nV)
    (hy : OptLen p.y0 (n.nV + n.nA)) (h0 : p.opts.qpSolver = 0)
    {N : Int} (he : ∀ k r, 0 ≤ (E.e.qp k r).iter ∧ (E.e.qp k r).iter ≤ N) (hsm : Small p.opts N) (ha : FinAns E.e)
    {P : Prob K n} (hP : c.Is P) (hQ : P.Qᵀ = P.Q) {r0 f ts tc : K} (hr : p.opts.rho0 = fin r0) (hf : p.opts.factor = fin f) (f0 : f ≠ 0)
    (hts : p.opts.statTol = fin ts) (htc : p.opts.complTol = fin tc) {t : K}
    (hF : NearOn E.e n (IsSub P (c.lims.bnds.rowLo n) (c.lims.bnds.rowHi n) (c.lims.bnds.boxLo n) (c.lims.bnds.boxHi n)) t)
    {fuel : Nat} {out : MexOut (Ext K)} (h : mexFunction E fuel 3 c.prhs = .ok (some out)) {s : MxStruct (Ext K)} (hs : out.stats = some s)
    (hex : s.lookup "exit_flag" = some [fin 0]) :
    ∃ (k : Nat) (x v : Fin n.nV → K) (y : Fin (n.nV + n.nA) → K), out.x = ev x ∧ out.y = some (ev y) ∧
      s.lookup "iters_total" = some [fin ((k : K) + 1)] ∧ (k : Int) ≤ max 0 p.opts.maxIter ∧ c.lims.Feas P v ∧
      (∀ i, |x i - v i| ≤ t + k * epsK) ∧ P.phi x < tc ∧ (P.gPhi = 0 → ∀ i, |P.residual x y i| < ts) := by
  have hl : c.lin = none → n.nC = 0 := by
    intro hn
    rcases hP.A with ⟨_, h⟩ | ⟨l, h, _⟩
    · exact h
    · rw [hn] at h; cases h
  have hpair : c.lbL = none ↔ c.lbR = none := by
    rcases hP.low with ⟨h1, h2, _⟩ | ⟨h1, h2⟩
    · exact ⟨fun _ => h2, fun _ => h1⟩
    · have h1 : c.lbL = _ := h1
      have h2 : c.lbR = _ := h2
      rw [h1, h2]
      simp
  rcases C50_outcome E c hV hC hl hp hx' hy with ⟨_, hno⟩ | ⟨_, o, hload, hH⟩
  · rw [mexFunction, if_neg (by omega), hno] at h
    cases h
  · obtain ⟨_, _, hPr, hld⟩ := MexCall.loaded hV hC hl hp hx' hy hpair hload
    obtain ⟨hb, hlow, hlb, hub, _⟩ := start_clean E hV hC p.opts
    have hare := MexCall.are hC hP hQ hx hx' hy (c := c)
    obtain ⟨hS, hsp⟩ := Setup.dense hb hlow hare hld hr hf f0 ha
    have hSt := Stored.dense hb hlb hub hare.fits hld
    rw [c.bnds_eq] at hSt
    exact mex_solved hload hPr (by rw [h0, hsp]; rfl) he hsm (fun h2 => by rw [h0] at h2; cases h2) hS hSt (fun _ => hQ) hts htc hF h hs hex
      (by rw [h0]; rfl)

/-- C78 (exact arithmetic): the same for a call with sparse matrices; with OSQP there are no multipliers for the bounds of the
variables. -/
theorem C78_solution_sparse (E : MexEnv (Ext K)) (c : SpCall (Ext K) n) (hV : n.nV ≠ 0) (hC : n.nComp ≠ 0) (hk : c.OK) {p : Params (Ext K)}
    (hp : c.readParams E = .ok p) {x0 : Fin n.nV → K} (hx : ArgOpt p.x0 n.nV x0) (hx' : OptLen p.x0 n.nV)
    (hy : OptLen p.y0 (n.nV + n.nA)) (h0 : p.opts.qpSolver = 1 ∨ (p.opts.qpSolver = 2 ∧ c.box.bind (·.1) = none ∧ c.box.bind (·.2) = none ∧
      ∀ r, (E.e.qp 0 r).setup = true ∧ (E.e.qp 0 r).warmX = true ∧ (E.e.qp 0 r).warmY = true))
    {N : Int} (he : ∀ k r, 0 ≤ (E.e.qp k r).iter ∧ (E.e.qp k r).iter ≤ N) (hsm : Small p.opts N) (ha : FinAns E.e)
    {P : Prob K n} (hP : c.Describes P) (hQ : P.Qᵀ = P.Q) {r0 f ts tc : K} (hr : p.opts.rho0 = fin r0) (hf : p.opts.factor = fin f) (f0 : f ≠ 0)
    (hts : p.opts.statTol = fin ts) (htc : p.opts.complTol = fin tc) {t : K}
    (hF : NearOn E.e n (IsSub P (c.lims.bnds.rowLo n) (c.lims.bnds.rowHi n) (c.lims.bnds.boxLo n) (c.lims.bnds.boxHi n)) t)
    {fuel : Nat} {out : MexOut (Ext K)} (h : mexFunction E fuel 3 c.prhs = .ok (some out)) {s : MxStruct (Ext K)} (hs : out.stats = some s)
    (hex : s.lookup "exit_flag" = some [fin 0]) :
    ∃ (k : Nat) (x v : Fin n.nV → K) (y : Fin ((if p.opts.qpSolver = 2 then 0 else n.nV) + n.nA) → K), out.x = ev x ∧ out.y = some (ev y) ∧
      s.lookup "iters_total" = some [fin ((k : K) + 1)] ∧ (k : Int) ≤ max 0 p.opts.maxIter ∧ c.lims.Feas P v ∧
      (∀ i, |x i - v i| ≤ t + k * epsK) ∧ P.phi x < tc ∧ (P.gPhi = 0 → ∀ i, |P.residual x y i| < ts) := by
  have hpair : c.lbL = none ↔ c.lbR = none := by
    rcases hP.low with ⟨h1, h2, _⟩ | ⟨h1, h2⟩
    · exact ⟨fun _ => h2, fun _ => h1⟩
    · have h1 : c.lbL = _ := h1
      have h2 : c.lbR = _ := h2
      rw [h1, h2]
      simp
  obtain ⟨C, _, ⟨_, hno⟩ | ⟨_, _, hno⟩ | ⟨S, o, _, _, hload, hH, _⟩⟩ := C65_outcome E c hV hC hk hp hx' hy
  · rw [mexFunction, if_neg (by omega), hno] at h
    cases h
  · rw [mexFunction, if_neg (by omega), hno] at h
    cases h
  · obtain ⟨_, _, hPr, hld⟩ := SpCall.loaded hV hC hk hp hx' hy hpair hload
    obtain ⟨hb, hlow, hlb, hub, hidx⟩ := start_clean E hV hC p.opts
    have hare := SpCall.are hC hk hP hx hx' hy (c := c)
    obtain ⟨hS, hsp⟩ := Setup.sparse hb hidx hlow hare hld hr hf f0 ha
    have hSt := Stored.sparse hb hlb hub hare.fits hld
    rw [c.bnds_eq] at hSt
    exact mex_solved hload hPr (SpCall.choice hV hC hk hx' hy hH hld h0) he hsm (fun h2 => by
      rcases h0 with h0 | ⟨_, _, _, h3⟩
      · rw [h0] at h2; cases h2
      · exact h3) hS hSt (fun _ => hQ) hts htc hF h hs hex rfl

end

end LCQ
