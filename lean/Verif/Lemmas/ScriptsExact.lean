import Verif.Lemmas.ScriptsRun
import Verif.Props.MatlabResult
import Verif.Lemmas.CircleExact

/-!
# The example scripts in exact arithmetic: the loaded problems
-/

namespace LCQ.Script
open Scalar Ext
open scoped Matrix

section
variable {K : Type} [Field K] [LinearOrder K] [IsStrictOrderedRing K] {n : Dims}

theorem dense_setup {E : MexEnv (Ext K)} {c : MexCall (Ext K) n} (hV : n.nV ≠ 0) (hC : n.nComp ≠ 0) {p : Params (Ext K)}
    (hp : c.readParams E = .ok p) {x0 : Fin n.nV → K} (hx : ArgOpt p.x0 n.nV x0) (hx' : OptLen p.x0 n.nV)
    (hy : OptLen p.y0 (n.nV + n.nA)) (ha : FinAns E.e) {P : Prob K n} (hP : c.Is P) (hQ : P.Qᵀ = P.Q) {r0 f : K} (hr : p.opts.rho0 = fin r0)
    (hf : p.opts.factor = fin f) (f0 : f ≠ 0) {m : Dims} {q : Options (Ext K)} {o : Obj (Ext K)} (h : mexLoad E c.prhs = .ok (m, q, o)) :
    Setup E.e o n P x0 r0 f ∧ Stored o n c.lims.bnds ∧ o.d.opts = p.opts := by
  have hl : c.lin = none → n.nC = 0 := by
    intro hn
    rcases hP.A with ⟨_, h⟩ | ⟨l, h, _⟩
    · exact h
    · rw [hn] at h; cases h
  have hpair : c.lbL = none ↔ c.lbR = none := by
    rcases hP.low with ⟨h1, h2, _⟩ | ⟨h1, h2⟩
    · exact ⟨fun _ => h2, fun _ => h1⟩
    · have h1 : c.lbL = _ := h1
      have h2 : c.lbR = _ := h2
      rw [h1, h2]
      simp
  obtain ⟨rfl, rfl, hPr, hld⟩ := MexCall.loaded hV hC hl hp hx' hy hpair h
  obtain ⟨hb, hlow, hlb, hub, _⟩ := start_clean E hV hC p.opts
  have hare := MexCall.are hC hP hQ hx hx' hy (c := c)
  obtain ⟨hS, hsp⟩ := Setup.dense hb hlow hare hld hr hf f0 ha
  have hSt := Stored.dense hb hlb hub hare.fits hld
  rw [c.bnds_eq] at hSt
  obtain ⟨_, _, _, hopt, _⟩ := mexLoad_inv h
  exact ⟨hS, hSt, hopt⟩

theorem sparse_setup {E : MexEnv (Ext K)} {c : SpCall (Ext K) n} (hV : n.nV ≠ 0) (hC : n.nComp ≠ 0) (hk : c.OK) {p : Params (Ext K)}
    (hp : c.readParams E = .ok p) {x0 : Fin n.nV → K} (hx : ArgOpt p.x0 n.nV x0) (hx' : OptLen p.x0 n.nV)
    (hy : OptLen p.y0 (n.nV + n.nA)) (ha : FinAns E.e) {P : Prob K n} (hP : c.Describes P) {r0 f : K} (hr : p.opts.rho0 = fin r0)
    (hf : p.opts.factor = fin f) (f0 : f ≠ 0) {m : Dims} {q : Options (Ext K)} {o : Obj (Ext K)} (h : mexLoad E c.prhs = .ok (m, q, o)) :
    Setup E.e o n P x0 r0 f ∧ Stored o n c.lims.bnds ∧ o.d.opts = p.opts := by
  have hpair : c.lbL = none ↔ c.lbR = none := by
    rcases hP.low with ⟨h1, h2, _⟩ | ⟨h1, h2⟩
    · exact ⟨fun _ => h2, fun _ => h1⟩
    · have h1 : c.lbL = _ := h1
      have h2 : c.lbR = _ := h2
      rw [h1, h2]
      simp
  obtain ⟨rfl, rfl, hPr, hld⟩ := SpCall.loaded hV hC hk hp hx' hy hpair h
  obtain ⟨hb, hlow, hlb, hub, hidx⟩ := start_clean E hV hC p.opts
  have hare := SpCall.are hC hk hP hx hx' hy (c := c)
  obtain ⟨hS, hsp⟩ := Setup.sparse hb hidx hlow hare hld hr hf f0 ha
  have hSt := Stored.sparse hb hlb hub hare.fits hld
  rw [c.bnds_eq] at hSt
  obtain ⟨_, _, _, hopt, _⟩ := mexLoad_inv h
  exact ⟨hS, hSt, hopt⟩

theorem lims_bounds {o : Obj (Ext K)} {b : Lims K n} (hb : Stored o n b.bnds) :
    BoundsAre o n (b.bnds.rowLo n) (b.bnds.rowHi n) (b.bnds.boxLo n) (b.bnds.boxHi n) := by
  refine hb.bounds ?_ ?_
  all_goals
    simp only [Lims.bnds, vecArg]
    intro w hw
    split at hw
    · cases hw
    · obtain ⟨w', _, rfl⟩ := Option.map_eq_some_iff.1 hw
      simp

/-- a successful run on an object that holds the problem -/
theorem run_solved {e : Env (Ext K)} {o o' : Obj (Ext K)} {P : Prob K n} {x0 : Fin n.nV → K} {r0 f : K} (hS : Setup e o n P x0 r0 f)
    {b : Lims K n} (hb : Stored o n b.bnds) (hQ : P.Qᵀ = P.Q) {ts tc : K} (hts : o.d.opts.statTol = fin ts)
    (htc : o.d.opts.complTol = fin tc) {t : K} {lA uA : Fin n.nA → Ext K} {l u : Fin n.nV → Ext K} (hBB : BoundsAre o n lA uA l u)
    (hF : NearOn e n (IsSub P lA uA l u) t) {fuel : Nat} (hq : runSolver e fuel o = .ok (some (.successfulReturn, o'))) :
    ∃ (k : Nat) (x v : Fin n.nV → K), o'.s.xk = some (ev x) ∧ o'.s.stats.iterTotal = k + 1 ∧ (k : Int) ≤ max 0 o.d.opts.maxIter ∧
      b.Feas P v ∧ (∀ i, |x i - v i| ≤ t + k * epsK) ∧ P.phi x < tc ∧
      (P.gPhi = 0 → ∃ (off : Nat) (y : Fin (off + n.nA) → K), o'.s.yk = some (ev y) ∧ ∀ i, |P.residual x y i| < ts) := by
  obtain ⟨k, x, hk, hkm, hxk, v, hv, hxv⟩ := C37_returned hS hBB hF hq
  obtain ⟨off', r', b', x', y, h0, _, _, hx', hr, _, hy', hphi, _⟩ := success_x hS hts htc hq
  have exx : x' = x := by
    rw [hxk] at hx'
    injection hx' with hx'
    exact (ev_inj hx').symm
  subst exx
  refine ⟨k, x', v, hxk, hk, hkm, lims_feas.1 (hb.feas hBB hv), hxv, hphi, fun hg => ?_⟩
  obtain ⟨off2, x2, y2, hbo, hx2, hy2, hres⟩ := C21_stationary hS hts htc (fun _ => hQ) hq (.inl hg)
  have e1 : x2 = x' := by
    rw [hx'] at hx2
    exact (ev_inj (Option.some.inj hx2)).symm
  rw [e1] at hres
  exact ⟨off2, y2, hy2, hres⟩

/-- a matrix of natural numbers has no tiny entries -/
theorem nat_tiny {x : K} (h : ∃ m : Nat, x = m) : x = 0 ∨ 1 / 10 ^ 25 < |x| := by
  obtain ⟨m, rfl⟩ := h
  rcases Nat.eq_zero_or_pos m with rfl | hm
  · exact .inl (by simp)
  · right
    have : (1 : K) ≤ m := by exact_mod_cast hm
    rw [abs_of_nonneg (by linarith)]
    refine lt_of_lt_of_le ?_ this
    norm_num

/-- the sparse load succeeds -/
theorem sym_some {c : SpCall (Ext K) n} (hk : c.OK) {P : Prob K n} (hP : c.Describes P) {i j : Fin n.nV} (hij : P.C i j ≠ 0) :
    symProdSparse c.L.tight c.R.tight ≠ .ok none := by
  obtain ⟨L, hL, sL, dL⟩ := hP.L
  obtain ⟨R, hR, sR, dR⟩ := hP.R
  have vL : L.Valid := emb_valid_iff.1 (hL ▸ hk.L.1)
  have vR : R.Valid := emb_valid_iff.1 (hR ▸ hk.R.1)
  have mL : L.m = n.nComp := by have := hk.L.2.1; rw [hL] at this; exact this
  have nL : L.n = n.nV := by have := hk.L.2.2; rw [hL] at this; exact this
  have mR : R.m = n.nComp := by have := hk.R.2.1; rw [hR] at this; exact this
  have nR : R.n = n.nV := by have := hk.R.2.2; rw [hR] at this; exact this
  have tv : ∀ {S : CSC K}, S.Valid → S.tight.Valid := fun {S} v => (CSC.Is.tight ⟨v, rfl, rfl⟩).1
  have h4 := C04_symProdSparse L.tight R.tight (tv vL) (tv vR) (tight_sorted vL sL) (tight_sorted vR sR) n.nComp n.nV mL nL mR nR _ rfl
  rw [hL, hR, tight_emb, tight_emb]
  rw [tight_den vL nL, tight_den vR nR, dL, dR] at h4
  rcases h4 with ⟨h4, _⟩ | ⟨_, S, h5, _⟩
  · exfalso
    have h1 : |P.C i j| ≤ 1 / 10 ^ 25 := h4 i j
    rcases hP.tiny i j with h | h
    · exact hij h
    · exact absurd h1 (not_le.2 h)
  · rw [h5]
    simp

omit [IsStrictOrderedRing K] in
theorem ofInt_fin (m : Int) : (ofInt m : Ext K) = fin (m : K) := by
  show fin ((m : K) / 10 ^ 0) = _
  simp

/-- the exit flag is zero only after a success -/
theorem flag_success {t : Ext K} {b : Bool} {rv : RV} {st : Stats (Ext K)} {f : MxStruct (Ext K)} (hst : StatsRight t b rv st f)
    (hex : f.lookup "exit_flag" = some [fin 0]) : rv = .successfulReturn := by
  have := hst "exit_flag" (by simp [statNames]) (.inl (by decide))
  rw [hex] at this
  injection this with this
  injection this with this _
  rw [ofInt_fin] at this
  injection this with this
  exact code_zero (by exact_mod_cast this.symm)

/-! ## the problems -/

omit [IsStrictOrderedRing K] in
theorem warmUpDense_is : (warmUpDense : MexCall (Ext K) _).Is (WarmUp.prob 0) := by
  refine ⟨?_, ?_, .inl ⟨rfl, rfl⟩, ?_, ?_, .inl ⟨rfl, rfl, rfl, rfl⟩⟩
  · ext i j
    change Fin 2 at i j
    fin_cases i <;> fin_cases j <;> simp [warmUpDense, WarmUp.prob, sq]
  · funext i
    change Fin 2 at i
    fin_cases i <;> simp [warmUpDense, WarmUp.prob, sq]
  · ext i j
    change Fin 1 at i
    change Fin 2 at j
    fin_cases i; fin_cases j <;> simp [warmUpDense, WarmUp.prob, sq]
  · ext i j
    change Fin 1 at i
    change Fin 2 at j
    fin_cases i; fin_cases j <;> simp [warmUpDense, WarmUp.prob, sq]

omit [IsStrictOrderedRing K] in
theorem generalized_is : (generalizedCall : MexCall (Ext K) _).Is genProb := by
  refine ⟨?_, ?_, .inl ⟨rfl, rfl⟩, ?_, ?_, .inr ⟨?_, ?_⟩⟩
  · ext i j
    change Fin 2 at i j
    fin_cases i <;> fin_cases j <;> simp [generalizedCall, genProb, sq]
  · funext i
    change Fin 2 at i
    fin_cases i <;> simp [generalizedCall, genProb, sq]
  · ext i j
    change Fin 1 at i
    change Fin 2 at j
    fin_cases i; fin_cases j <;> simp [generalizedCall, genProb, sq]
  · ext i j
    change Fin 1 at i
    change Fin 2 at j
    fin_cases i; fin_cases j <;> simp [generalizedCall, genProb, sq]
  · simp [MexCall.lims, generalizedCall, genProb]
  · simp [MexCall.lims, generalizedCall, genProb]

omit [IsStrictOrderedRing K] in
theorem scale_is : (scaleCall : MexCall (Ext K) _).Is scaleProb := by
  refine ⟨?_, ?_, .inl ⟨rfl, rfl⟩, ?_, ?_, .inl ⟨rfl, rfl, rfl, rfl⟩⟩
  · ext i j
    change Fin 2 at i j
    fin_cases i <;> fin_cases j <;> simp [scaleCall, scaleProb, sq]
    norm_num
  · funext i
    change Fin 2 at i
    fin_cases i <;> simp [scaleCall, scaleProb, sq]
  · ext i j
    change Fin 1 at i
    change Fin 2 at j
    fin_cases i; fin_cases j <;> simp [scaleCall, scaleProb, sq]
  · ext i j
    change Fin 1 at i
    change Fin 2 at j
    fin_cases i; fin_cases j <;> simp [scaleCall, scaleProb, sq]

theorem warmUpSparse_is (s : Int) : (warmUpSparse s : SpCall (Ext K) _).Describes (WarmUp.prob 0) := by
  obtain ⟨Q, q1, _, q3⟩ := (rows22 (ofInt 2 : Ext K) (ofInt 0) (ofInt 0) (ofInt 2)).den (G := (WarmUp.prob (0 : K)).Q) (by
    intro i j
    fin_cases i <;> fin_cases j <;> simp [WarmUp.prob, sq])
  obtain ⟨L, l1, l2, l3⟩ := (rows12 (ofInt 1 : Ext K) (ofInt 0)).den (G := (WarmUp.prob (0 : K)).L) (by
    intro i j
    fin_cases i; fin_cases j <;> simp [WarmUp.prob, sq])
  obtain ⟨R, r1, r2, r3⟩ := (rows12 (ofInt 0 : Ext K) (ofInt 1)).den (G := (WarmUp.prob (0 : K)).R) (by
    intro i j
    fin_cases i; fin_cases j <;> simp [WarmUp.prob, sq])
  refine ⟨⟨Q, q1, q3⟩, ?_, .inl ⟨rfl, rfl⟩, ⟨L, l1, l2, l3⟩, ⟨R, r1, r2, r3⟩, .inl ⟨rfl, rfl, rfl, rfl⟩, fun i j => nat_tiny ?_⟩
  · funext i
    change Fin 2 at i
    fin_cases i <;> simp [warmUpSparse, WarmUp.prob, sq]
  · change Fin 2 at i j
    fin_cases i <;> fin_cases j
    · exact ⟨0, by simp [Prob.C, WarmUp.prob, Matrix.mul_apply]⟩
    · exact ⟨1, by simp [Prob.C, WarmUp.prob, Matrix.mul_apply]⟩
    · exact ⟨1, by simp [Prob.C, WarmUp.prob, Matrix.mul_apply]⟩
    · exact ⟨0, by simp [Prob.C, WarmUp.prob, Matrix.mul_apply]⟩

variable {N : Nat} {d : Nat → K × K} {c : Circle (Ext K)}

theorem one_fin : (one : Ext K) = fin 1 := by simp [one, LCQ.Circle.lit_fin]

theorem hess_fin (i j : Fin (LCQ.Circle.dims N).nV) : (hess i j : Ext K) = fin ((circleProb N d).Q i j) := by
  simp only [hess, circleProb, Matrix.of_apply, LCQ.Circle.lit_fin, zero_fin, one_fin]
  split_ifs
  · congr 1; norm_num
  · congr 1; norm_num
  · show fin _ = fin _
    congr 1
    norm_num
  · show fin _ = fin _
    congr 1
    norm_num

theorem lin_fin (j : Fin (LCQ.Circle.dims N).nV) : (lin j : Ext K) = fin ((circleProb N d).g j) := by
  simp only [lin, circleProb, LCQ.Circle.prob, LCQ.Circle.lit_fin, zero_fin]
  split_ifs
  · show fin _ = fin _
    congr 1
    norm_num
  · show fin _ = fin _
    congr 1
    norm_num
  · rfl

theorem cons_fin (i : Fin (N + 1)) (j : Fin (LCQ.Circle.dims N).nV) :
    (LCQ.Circle.cons N (fun i => LCQ.Circle.stored d i) i j : Ext K) = fin ((circleProb N d).A i j) := by
  simp only [LCQ.Circle.cons, circleProb, LCQ.Circle.prob, one_fin, zero_fin, LCQ.Circle.stored]
  split_ifs <;> rfl

theorem left_fin (i : Fin N) (j : Fin (LCQ.Circle.dims N).nV) : (LCQ.Circle.left i j : Ext K) = fin ((circleProb N d).L i j) := by
  simp only [LCQ.Circle.left, circleProb, LCQ.Circle.prob, one_fin, zero_fin]
  split_ifs <;> rfl

theorem right_fin (i : Fin N) (j : Fin (LCQ.Circle.dims N).nV) : (LCQ.Circle.right i j : Ext K) = fin ((circleProb N d).R i j) := by
  simp only [LCQ.Circle.right, circleProb, LCQ.Circle.prob, one_fin, zero_fin]
  split_ifs <;> rfl

theorem guess_fin (j : Fin (LCQ.Circle.dims N).nV) : (LCQ.Circle.guess j : Ext K) = fin (LCQ.Circle.start N j) := by
  simp only [LCQ.Circle.guess, LCQ.Circle.start, one_fin, LCQ.Circle.lit_fin]
  split_ifs
  · congr 1; norm_num
  · show fin _ = fin _
    congr 1; norm_num
  · rfl

/-- the directions of the script are counted from one -/
def shift (d : Nat → K × K) (i : Nat) : K × K := d (i + 1)

theorem circleDense_is (fs : List (String × Mx (Ext K))) :
    (circleDense N (LCQ.Circle.stored d) fs).Is (circleProb N (shift d)) := by
  refine ⟨?_, ?_, .inr ⟨_, rfl, ?_⟩, ?_, ?_, .inl ⟨rfl, rfl, rfl, rfl⟩⟩
  · ext i j
    exact hess_fin i j
  · funext i
    exact lin_fin i
  · ext i j
    exact cons_fin (d := shift d) i j
  · ext i j
    exact left_fin i j
  · ext i j
    exact right_fin i j

omit [LinearOrder K] [IsStrictOrderedRing K] in
theorem circleC_nat (i j : Fin (LCQ.Circle.dims N).nV) : ∃ m : Nat, (circleProb N d).C i j = m := by
  refine ⟨∑ k : Fin N, ((if i.1 = 2 * k + 2 then 1 else 0) * (if j.1 = 2 * k + 3 then 1 else 0)) +
    ∑ k : Fin N, ((if i.1 = 2 * k + 3 then 1 else 0) * (if j.1 = 2 * k + 2 then 1 else 0)), ?_⟩
  push_cast
  rfl

theorem circleC_pos (hN : 1 ≤ N) : (circleProb N d).C ⟨2, by simp only; omega⟩ ⟨3, by simp only; omega⟩ ≠ 0 := by
  have h1 : 1 ≤ (circleProb N d).C ⟨2, by simp only; omega⟩ ⟨3, by simp only; omega⟩ := by
    show (1 : K) ≤ ∑ k : Fin N, ((if 2 = 2 * k.1 + 2 then 1 else 0) * (if 3 = 2 * k.1 + 3 then 1 else 0)) +
      ∑ k : Fin N, ((if 2 = 2 * k.1 + 3 then 1 else 0) * (if 3 = 2 * k.1 + 2 then 1 else 0))
    have h2 := Finset.single_le_sum (f := fun k : Fin N => ((if 2 = 2 * k.1 + 2 then (1 : K) else 0) * (if 3 = 2 * k.1 + 3 then 1 else 0)))
      (s := Finset.univ) (fun k _ => by split_ifs <;> simp) (Finset.mem_univ ⟨0, by omega⟩)
    have h3 : (0 : K) ≤ ∑ k : Fin N, ((if 2 = 2 * k.1 + 3 then 1 else 0) * (if 3 = 2 * k.1 + 2 then 1 else 0)) :=
      Finset.sum_nonneg fun k _ => by split_ifs <;> simp
    simp only [Nat.mul_zero, Nat.zero_add, if_true, mul_one] at h2
    linarith
  intro h0
  rw [h0] at h1
  exact absurd h1 (not_le.2 one_pos)

theorem circleSparse_is (h : c.Are N (LCQ.Circle.stored d)) (fs : List (String × Mx (Ext K))) :
    (circleSparse N c fs).Describes (circleProb N (shift d)) := by
  obtain ⟨Q, q1, _, q3⟩ := h.Q.den (G := (circleProb N (shift d)).Q) fun i j => hess_fin i j
  obtain ⟨A, a1, _, a3⟩ := h.A.den (G := (circleProb N (shift d)).A) fun i j => cons_fin (d := shift d) i j
  obtain ⟨L, l1, l2, l3⟩ := h.L.den (G := (circleProb N (shift d)).L) fun i j => left_fin i j
  obtain ⟨R, r1, r2, r3⟩ := h.R.den (G := (circleProb N (shift d)).R) fun i j => right_fin i j
  refine ⟨⟨Q, q1, q3⟩, ?_, .inr ⟨_, rfl, A, a1, a3⟩, ⟨L, l1, l2, l3⟩, ⟨R, r1, r2, r3⟩, .inl ⟨rfl, rfl, rfl, rfl⟩,
    fun i j => nat_tiny (circleC_nat i j)⟩
  funext i
  exact lin_fin i

theorem Circle.Are.start (h : c.Are N (LCQ.Circle.stored d)) : ArgOpt (some c.x0.data) (LCQ.Circle.dims N).nV (LCQ.Circle.start N) := by
  have hv : LCQ.Circle.VecHas (2 + 2 * N) LCQ.Circle.guess c.x0.data := by
    refine ⟨h.x0.len, fun i hi => ?_⟩
    have := h.x0.ent.2 0 (by omega) i hi
    simpa using this
  exact .inr (hv.arg guess_fin)

/-- the constraints of the calls of the scripts are those of the problem -/
theorem circle_feas {b : Lims K (LCQ.Circle.dims N)} (hb : b = ⟨some fun _ => one, some fun _ => one, none, none, none, none, none, none⟩)
    {v : Fin (LCQ.Circle.dims N).nV → K} (h : b.Feas (circleProb N d) v) : LCQ.Circle.Linear d v := by
  subst hb
  have hA : ∀ i, ((LCQ.Circle.prob N d).A *ᵥ v) i = 1 := fun i => by
    obtain ⟨h1, h2⟩ := h.A i
    have h1 : ((one : Ext K) <=. fin (((LCQ.Circle.prob N d).A *ᵥ v) i)) = true := h1
    have h2 : (fin (((LCQ.Circle.prob N d).A *ᵥ v) i) <=. (one : Ext K)) = true := h2
    rw [one_fin] at h1 h2
    exact le_antisymm (by simpa using h2) (by simpa using h1)
  refine ⟨fun i => ?_, ?_, fun i => ?_, fun i => ?_⟩
  · rw [← LCQ.Circle.prob_A, hA]
  · rw [← LCQ.Circle.prob_sum d, hA]
  · rw [← LCQ.Circle.prob_L d]
    have h1 : ((fin 0 : Ext K) <=. fin (((LCQ.Circle.prob N d).L *ᵥ v) i)) = true := (h.L i).1
    simpa using h1
  · rw [← LCQ.Circle.prob_R d]
    have h1 : ((fin 0 : Ext K) <=. fin (((LCQ.Circle.prob N d).R *ᵥ v) i)) = true := (h.R i).1
    simpa using h1

omit [LinearOrder K] [IsStrictOrderedRing K] in
theorem circle_symm : (circleProb N d).Qᵀ = (circleProb N d).Q := by
  ext i j
  simp only [Matrix.transpose_apply, circleProb, Matrix.of_apply, and_comm, eq_comm]

omit [LinearOrder K] [IsStrictOrderedRing K] in
theorem circle_phi (x : Fin (LCQ.Circle.dims N).nV → K) : (circleProb N d).phi x = (LCQ.Circle.prob N d).phi x := rfl

omit [LinearOrder K] [IsStrictOrderedRing K] in
theorem circle_gPhi : (circleProb N d).gPhi = 0 := LCQ.Circle.prob_gPhi d

/-- the bounds of the calls of the scripts -/
theorem circle_bounds {o : Obj (Ext K)} {b : Lims K (LCQ.Circle.dims N)}
    (hb : b = ⟨some fun _ => one, some fun _ => one, none, none, none, none, none, none⟩) (hs : Stored o (LCQ.Circle.dims N) b.bnds) :
    BoundsAre o (LCQ.Circle.dims N) (LCQ.Circle.lowA N) (LCQ.Circle.uppA N) (fun _ => ninf) (fun _ => pinf) := by
  have hB := lims_bounds hs
  have key : ∀ (w : Ext K) (v : Ext K), vecOf (LCQ.Circle.dims N).nA (orFill (some (List.ofFn fun _ : Fin (N + 1) => (one : Ext K))) (N + 1) w ++
      orFill none N v ++ orFill none N v) = fun i => if i.1 < N + 1 then fin 1 else v := by
    intro w v
    funext i
    have hi : i.1 < N + 1 + 2 * N := i.2
    have e : orFill (some (List.ofFn fun _ : Fin (N + 1) => (one : Ext K))) (N + 1) w = List.replicate (N + 1) (fin 1) := by
      simp only [orFill, one_fin, List.ofFn_const]
      simp
    simp only [vecOf]
    rw [e]
    simp only [orFill, List.append_assoc, List.replicate_append_replicate, List.getD_eq_getElem?_getD]
    split_ifs with h1
    · rw [List.getElem?_append_left (by simpa using h1), List.getElem?_replicate, if_pos h1]
      rfl
    · rw [List.getElem?_append_right (by simp; omega), List.getElem?_replicate, if_pos (by simp; omega)]
      rfl
  have box : ∀ v : Ext K, vecOf (LCQ.Circle.dims N).nV (orFill none (LCQ.Circle.dims N).nV v) = fun _ => v := by
    intro v
    funext i
    simp [vecOf, orFill, List.getD_eq_getElem?_getD]
  have e0 : b.bnds = ⟨some (List.ofFn fun _ : Fin (N + 1) => (one : Ext K)), some (List.ofFn fun _ : Fin (N + 1) => (one : Ext K)), none, none,
      none, none, none, none⟩ := by
    subst hb
    simp [Lims.bnds, vecArg]
  have e1 : b.bnds.rowLo (LCQ.Circle.dims N) = LCQ.Circle.lowA N := by rw [e0]; exact key ninf (fin 0)
  have e2 : b.bnds.rowHi (LCQ.Circle.dims N) = LCQ.Circle.uppA N := by rw [e0]; exact key pinf pinf
  have e3 : b.bnds.boxLo (LCQ.Circle.dims N) = fun _ => ninf := by rw [e0]; exact box ninf
  have e4 : b.bnds.boxHi (LCQ.Circle.dims N) = fun _ => pinf := by rw [e0]; exact box pinf
  rwa [e1, e2, e3, e4] at hB

end

end LCQ.Script
