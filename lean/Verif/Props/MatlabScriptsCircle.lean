import Verif.Props.MatlabScriptsExact

/-!
# C79: solvers_test.m and optimize_on_circle.m in exact arithmetic
-/

namespace LCQ.Script
open Scalar Ext
open scoped Matrix

variable {K : Type} [Field K] [LinearOrder K] [IsStrictOrderedRing K] {E : MexEnv (Ext K)} {qd sd N : Nat} {d : Nat → K × K}
  {c : Circle (Ext K)}

theorem shift_stored (d : Nat → K × K) (hc : c.Are N (LCQ.Circle.stored d)) (hN : 1 ≤ N) (fs : List (String × Mx (Ext K))) :
    symProdSparse c.L.sparse.tight c.R.sparse.tight ≠ .ok none :=
  sym_some (hc.ok fs) (circleSparse_is hc fs) (circleC_pos hN)

/-- the statement about a point: it is near the constraints `d_i·p + λ_i = 1`, `Σ θ_i = 1`, `λ, θ ≥ 0`, and `Σ λ_i θ_i` is small -/
structure OnPolygon (N : Nat) (d : Nat → K × K) (t tc : K) (x : Fin (LCQ.Circle.dims N).nV → K) : Prop where
  near : ∃ v, LCQ.Circle.Linear d v ∧ ∀ i, |x i - v i| ≤ t
  compl : ∑ i : Fin N, LCQ.Circle.lam x i * LCQ.Circle.the x i < tc

theorem circle_held {s : Int} {p : Params (Ext K)} {fs : List (String × Mx (Ext K))} (hN : 1 ≤ N) (hc : c.Are N (LCQ.Circle.stored d))
    (hp : readParams E (LCQ.Circle.dims N) (.struct fs) = .ok p) (hx : p.x0 = some c.x0.data) (hy : p.y0 = none) (ha : FinAns E.e) {r f : K}
    (hr : p.opts.rho0 = fin r) (hf : p.opts.factor = fin f) (f0 : f ≠ 0) {m : Dims} {q : Options (Ext K)} {o : Obj (Ext K)}
    (h : mexLoad E (c.args (decide (s > 0)) fs) = .ok (m, q, o)) :
    Setup E.e o (LCQ.Circle.dims N) (circleProb N (shift d)) (LCQ.Circle.start N) r f ∧
    BoundsAre o (LCQ.Circle.dims N) (LCQ.Circle.lowA N) (LCQ.Circle.uppA N) (fun _ => ninf) (fun _ => pinf) ∧ o.d.opts = p.opts ∧
    ∃ b : Lims K (LCQ.Circle.dims N), b = ⟨some fun _ => one, some fun _ => one, none, none, none, none, none, none⟩ ∧
      Stored o (LCQ.Circle.dims N) b.bnds := by
  have hV : (LCQ.Circle.dims N).nV ≠ 0 := by simp only; omega
  have hC : (LCQ.Circle.dims N).nComp ≠ 0 := by simp only; omega
  have hx1 : ArgOpt p.x0 (LCQ.Circle.dims N).nV (LCQ.Circle.start N) := hx ▸ hc.start
  have hox : OptLen p.x0 (LCQ.Circle.dims N).nV := by rw [hx]; rintro v ⟨⟩; exact hc.x0.len.ge
  have hoy : OptLen p.y0 ((LCQ.Circle.dims N).nV + (LCQ.Circle.dims N).nA) := by rw [hy]; rintro v ⟨⟩
  by_cases hs : s > 0
  · rw [decide_eq_true hs, hc.sparse] at h
    obtain ⟨hS, hSt, hopt⟩ := sparse_setup (c := circleSparse N c fs) hV hC (hc.ok _) hp hx1 hox hoy ha (circleSparse_is hc fs) hr hf f0 h
    exact ⟨hS, circle_bounds rfl hSt, hopt, _, rfl, hSt⟩
  · rw [decide_eq_false hs, hc.dense] at h
    obtain ⟨hS, hSt, hopt⟩ := dense_setup (c := circleDense N (LCQ.Circle.stored d) fs) hV hC hp hx1 hox hoy ha (circleDense_is fs)
      circle_symm hr hf f0 h
    exact ⟨hS, circle_bounds rfl hSt, hopt, _, rfl, hSt⟩

/-- C79: in exact arithmetic a call in solvers_test.m ends without an error. -/
theorem C79_test_ends (hd : E.dflt = Options.default qd sd) (hT : Ints E) {s : Int} (h0 : 0 ≤ s) (h2 : s ≤ 2)
    {M : Int} (he : ∀ k r, 0 ≤ (E.e.qp k r).iter ∧ (E.e.qp k r).iter ≤ M) (hM : 1001 * M ≤ intMax) (ho : s = 2 → SetsUp E) (fuel : Nat)
    (hN : 1 ≤ N) (hc : c.Are N (LCQ.Circle.stored d)) :
    ∃ o q, mexLoad E (c.args (decide (s > 0)) (testParams c s)) = .ok (LCQ.Circle.dims N, (testGiven s).opts E.dflt, o) ∧
      runSolver E.e fuel o = .ok q ∧ testCall E fuel c s = .ok (q.map fun r => (E.time, fin (r.1.code : K))) := by
  rcases C79_test E hd hT h0 h2 he hM ho fuel hN hc with ⟨_, h, _⟩ | ⟨o, q, hl, hq, _, _, h⟩
  · exact absurd h (shift_stored d hc hN [])
  · simp only [ofInt_fin] at h
    exact ⟨o, q, hl, hq, h⟩

/-- C79: in exact arithmetic solvers_test.m ends without an error. -/
theorem C79_solvers_test_ends (hd : E.dflt = Options.default qd sd) (hT : Ints E)
    {M : Int} (he : ∀ k r, 0 ≤ (E.e.qp k r).iter ∧ (E.e.qp k r).iter ≤ M) (hM : 1001 * M ≤ intMax) (ho : SetsUp E) (fuel : Nat)
    (d : Nat → Nat → K × K) (Ns : List Nat) (hNs : ∀ N ∈ Ns, 1 ≤ N) :
    solversTest E fuel (fun N => LCQ.Circle.stored (d N)) Ns = .ok none ∨
    ∃ rows, solversTest E fuel (fun N => LCQ.Circle.stored (d N)) Ns = .ok (some rows) ∧ rows.length = Ns.length := by
  induction Ns with
  | nil => exact .inr ⟨[], rfl, rfl⟩
  | cons N Ns ih =>
    obtain ⟨c, hc, hA⟩ := circle_ok N (LCQ.Circle.stored (d N))
    have hN : 1 ≤ N := hNs N (by simp)
    have key : ∀ s : Int, 0 ≤ s → s ≤ 2 → ∃ r, testCall E fuel c s = .ok r := fun s h0 h2 => by
      obtain ⟨_, _, _, _, h⟩ := C79_test_ends hd hT h0 h2 he hM (fun _ => ho) fuel hN hA
      exact ⟨_, h⟩
    obtain ⟨r0, h0⟩ := key 0 (by decide) (by decide)
    obtain ⟨r1, h1⟩ := key 1 (by decide) (by decide)
    obtain ⟨r2, h2⟩ := key 2 (by decide) (by decide)
    rw [solversTest, hc, lift_ok, mx_ok_bind, h0, mx_ok_bind]
    cases r0 with
    | none => exact .inl rfl
    | some r0 =>
      dsimp only
      rw [h1, mx_ok_bind]
      cases r1 with
      | none => exact .inl rfl
      | some r1 =>
        dsimp only
        rw [h2, mx_ok_bind]
        cases r2 with
        | none => exact .inl rfl
        | some r2 =>
          dsimp only
          rcases ih (fun N hN => hNs N (by simp [hN])) with h | ⟨rows, h, hr⟩
          · exact .inl (by rw [h]; rfl)
          · exact .inr ⟨_, by rw [h]; rfl, by simp [hr]⟩

/-- C79: let every answer of the QP solver be within `t` of a point satisfying the linear constraints.  If a call in solvers_test.m records
the exit flag zero, the last iterate is within `t + k ε` of such a point, `Σ λ_i θ_i` is below `1000 ε`, and the stationarity condition
holds up to 0.001; `k + 1` is the number of iterations, `k ≤ 1000`. -/
theorem C79_test_solution (hd : E.dflt = Options.default qd sd) (hT : Ints E) {s : Int} (h0 : 0 ≤ s) (h2 : s ≤ 2)
    {M : Int} (he : ∀ k r, 0 ≤ (E.e.qp k r).iter ∧ (E.e.qp k r).iter ≤ M) (hM : 1001 * M ≤ intMax) (ho : s = 2 → SetsUp E) (ha : FinAns E.e)
    {t : K} (hF : NearOn E.e (LCQ.Circle.dims N) (IsSub (circleProb N (shift d)) (LCQ.Circle.lowA N) (LCQ.Circle.uppA N) (fun _ => ninf)
      (fun _ => pinf)) t) {fuel : Nat} (hN : 1 ≤ N) (hc : c.Are N (LCQ.Circle.stored d)) {w : Ext K}
    (h : testCall E fuel c s = .ok (some (w, fin 0))) :
    ∃ o o', mexLoad E (c.args (decide (s > 0)) (testParams c s)) = .ok (LCQ.Circle.dims N, (testGiven s).opts E.dflt, o) ∧
      runSolver E.e fuel o = .ok (some (.successfulReturn, o')) ∧
      ∃ (k : Nat) (x : Fin (LCQ.Circle.dims N).nV → K) (off : Nat) (y : Fin (off + (LCQ.Circle.dims N).nA) → K),
        o'.s.xk = some (ev x) ∧ o'.s.yk = some (ev y) ∧ o'.s.stats.iterTotal = k + 1 ∧ k ≤ 1000 ∧
        OnPolygon N (shift d) (t + k * epsK) (1000 * epsK) x ∧ ∀ i, |(circleProb N (shift d)).residual x y i| < 1 / 1000 := by
  obtain ⟨o, q, hl, hq, h'⟩ := C79_test_ends hd hT h0 h2 he hM ho fuel hN hc
  rw [h] at h'
  cases q with
  | none => cases h'
  | some r =>
    obtain ⟨rv, o'⟩ := r
    injection h' with h'
    injection h' with h'
    injection h' with _ h'
    injection h' with h'
    have hrv : rv = .successfulReturn := code_zero (by exact_mod_cast h'.symm)
    subst hrv
    have hrho : ((testGiven s : Given (Ext K)).opts E.dflt).rho0 = fin (1 / 100) := by
      show E.dflt.rho0 = _
      rw [hd]; exact dflt_rho
    have hfac : ((testGiven s : Given (Ext K)).opts E.dflt).factor = fin 2 := by
      show E.dflt.factor = _
      rw [hd]; exact dflt_factor
    obtain ⟨hS, hB, hopt, b, hb, hSt⟩ := circle_held (s := s) hN hc (test_params hT h0 h2 hc) rfl rfl ha hrho hfac two_ne_zero hl
    have hts : o.d.opts.statTol = fin (1 / 1000) := by
      rw [hopt]
      simp only [Given.opts, testGiven, pick]
      rw [if_pos]
      · rw [LCQ.Circle.lit_fin]
        norm_num
      · simp [LCQ.Circle.lit_fin, eps]
        norm_num
    have htc : o.d.opts.complTol = fin (1000 * epsK) := by
      rw [hopt]
      show E.dflt.complTol = _
      rw [hd]; exact dflt_compl
    obtain ⟨k, x, v, hxk, hk, hkm, hv, hxv, hphi, hres⟩ := run_solved hS hSt circle_symm hts htc hB hF hq
    obtain ⟨off, y, hy, hres⟩ := hres circle_gPhi
    refine ⟨o, o', hl, hq, k, x, off, y, hxk, hy, hk, ?_, ⟨⟨v, circle_feas hb hv, hxv⟩, ?_⟩, hres⟩
    · rw [hopt] at hkm
      have hkm : (k : Int) ≤ max 0 E.dflt.maxIter := hkm
      rw [hd] at hkm
      have hkm : (k : Int) ≤ 1000 := hkm
      exact_mod_cast hkm
    · rw [← LCQ.Circle.prob_phi (shift d)]
      exact hphi

/-- C79: let every answer of the QP solver be within `t` of a point satisfying the linear constraints.  If the run of a call in
optimize_on_circle.m ends with success, the last iterate is within `t + k ε` of such a point, `Σ λ_i θ_i` is below `1000 ε`, the stationarity
condition holds up to `10^6 ε`, and the recorded values are twice the objective (relative to its value at the reference point) at this point and the
number `k + 1` of iterations. -/
theorem C79_circle_solution (hd : E.dflt = Options.default qd sd) (hT : Ints E)
    {M : Int} (he : ∀ k r, 0 ≤ (E.e.qp k r).iter ∧ (E.e.qp k r).iter ≤ M) (hM : 1001 * M ≤ intMax) (ha : FinAns E.e)
    {t : K} (hF : NearOn E.e (LCQ.Circle.dims N) (IsSub (circleProb N (shift d)) (LCQ.Circle.lowA N) (LCQ.Circle.uppA N) (fun _ => ninf)
      (fun _ => pinf)) t) {fuel : Nat} (hN : 1 ≤ N) (hc : c.Are N (LCQ.Circle.stored d)) {r : K} (hr : 1 / 10 ^ 25 < r)
    {m : Dims} {p : Options (Ext K)} {o o' : Obj (Ext K)} (hl : mexLoad E (c.args true (circleParams c (fin r))) = .ok (m, p, o))
    (hq : runSolver E.e fuel o = .ok (some (.successfulReturn, o'))) :
    ∃ (k : Nat) (x : Fin (LCQ.Circle.dims N).nV → K) (off : Nat) (y : Fin (off + (LCQ.Circle.dims N).nA) → K) (u : Ext K),
      circleCall E fuel c (fin r) = .ok (some ⟨fin (17 * (LCQ.Circle.px x - 1 / 2) ^ 2 -
        30 * (LCQ.Circle.px x - 1 / 2) * (LCQ.Circle.py x + 3 / 5) + 17 * (LCQ.Circle.py x + 3 / 5) ^ 2), fin ((k : K) + 1), u⟩) ∧
      o'.s.xk = some (ev x) ∧ o'.s.yk = some (ev y) ∧ k ≤ 1000 ∧
      OnPolygon N (shift d) (t + k * epsK) (1000 * epsK) x ∧ ∀ i, |(circleProb N (shift d)).residual x y i| < 10 ^ 6 * epsK := by
  have hrho : ((circleGiven (fin r) : Given (Ext K)).opts E.dflt).rho0 = fin r := pick_rho rfl hr
  have hfac : ((circleGiven (fin r) : Given (Ext K)).opts E.dflt).factor = fin 2 := pick_two rfl
  obtain ⟨hS, hB, hopt, b, hb, hSt⟩ := circle_held (s := 1) hN hc (circle_params hT (fin r) hc) rfl rfl ha hrho hfac two_ne_zero hl
  have hts : o.d.opts.statTol = fin (10 ^ 6 * epsK) := by
    rw [hopt]
    show E.dflt.statTol = _
    rw [hd]; exact dflt_stat
  have htc : o.d.opts.complTol = fin (1000 * epsK) := by
    rw [hopt]
    show E.dflt.complTol = _
    rw [hd]; exact dflt_compl
  obtain ⟨k, x, v, hxk, hk, hkm, hv, hxv, hphi, hres⟩ := run_solved hS hSt circle_symm hts htc hB hF hq
  obtain ⟨off, y, hy, hres⟩ := hres circle_gPhi
  rcases C79_circle E hd hT he hM fuel hN hc (fin r) with ⟨h, _⟩ | ⟨o1, q1, hl1, hq1, _, _, hsome⟩
  · exact absurd h (shift_stored d hc hN [])
  rw [hl] at hl1
  injection hl1 with hl1
  injection hl1 with _ hl1
  injection hl1 with _ hl1
  subst hl1
  rw [hq] at hq1
  injection hq1 with hq1
  subst hq1
  obtain ⟨x1, u, hx1, _, hobj, hcall⟩ := hsome _ rfl
  dsimp only at hx1 hcall
  rw [hxk] at hx1
  injection hx1 with hx1
  subst hx1
  have r0 : rd (ev x) 0 = .ok (fin (LCQ.Circle.px x)) := by
    have h : (ev x)[0]? = some (fin (x ⟨0, by simp only; omega⟩)) := by
      simp only [ev, emb, List.getElem?_map]
      rw [List.getElem?_ofFn, dif_pos (by show _ < 2 + 2 * N; omega)]
      rfl
    rw [rd, h]
    rfl
  have r1 : rd (ev x) 1 = .ok (fin (LCQ.Circle.py x)) := by
    have h : (ev x)[1]? = some (fin (x ⟨1, by simp only; omega⟩)) := by
      simp only [ev, emb, List.getElem?_map]
      rw [List.getElem?_ofFn, dif_pos (by show _ < 2 + 2 * N; omega)]
      rfl
    rw [rd, h]
    rfl
  rw [objective, r0, ok_bind, r1, ok_bind] at hobj
  injection hobj with hobj
  have hu : u = fin (17 * (LCQ.Circle.px x - 1 / 2) ^ 2 -
        30 * (LCQ.Circle.px x - 1 / 2) * (LCQ.Circle.py x + 3 / 5) + 17 * (LCQ.Circle.py x + 3 / 5) ^ 2) := by
    rw [← hobj, xk1, xk2, q11, q12, ofInt_fin, ofInt_fin, LCQ.Circle.lit_fin, LCQ.Circle.lit_fin]
    show fin _ = fin _
    congr 1
    push_cast
    ring
  refine ⟨k, x, off, y, ofInt o'.s.stats.iterOuter, ?_, hxk, hy, ?_, ⟨⟨v, circle_feas hb hv, hxv⟩, ?_⟩, hres⟩
  · rw [hcall, hu, hk, ofInt_fin]
    push_cast
    rfl
  · rw [hopt] at hkm
    have hkm : (k : Int) ≤ max 0 E.dflt.maxIter := hkm
    rw [hd] at hkm
    have hkm : (k : Int) ≤ 1000 := hkm
    exact_mod_cast hkm
  · rw [← LCQ.Circle.prob_phi (shift d)]
    exact hphi

/-- C79: such a point is near the boundary of the polygon `d_i·p ≤ 1`. -/
theorem C79_boundary {x : Fin (LCQ.Circle.dims N).nV → K} {t tc : K} (h : OnPolygon N d t tc x) :
    ∃ a b : K, |LCQ.Circle.px x - a| ≤ t ∧ |LCQ.Circle.py x - b| ≤ t ∧ (∀ i : Fin N, LCQ.Circle.along d i a b ≤ 1) ∧
      ∃ i : Fin N, 1 - LCQ.Circle.along d i a b < tc + t * (1 + ∑ j : Fin N, (1 - LCQ.Circle.along d j a b)) + N * t ^ 2 := by
  obtain ⟨v, hv, hx⟩ := h.near
  exact ⟨_, _, LCQ.Circle.C75_boundary hv hx (by rw [LCQ.Circle.prob_phi]; exact h.compl)⟩

/-- C79: the 47 values of the initial penalty parameter in optimize_on_circle.m -/
theorem C79_rhos (k : Nat) : rhoVals (47 + k) (lit 10 8 : Ext K) = some ((List.range 47).map fun j => fin ((3 / 2) ^ j / 10 ^ 7)) := by
  have key : ∀ j ≤ 46, rhoVals (47 - j + k) (fin ((3 / 2) ^ j / 10 ^ 7) : Ext K) =
      some ((List.range' j (47 - j)).map fun j => fin ((3 / 2) ^ j / 10 ^ 7)) := by
    intro j hj
    induction hn : 46 - j generalizing j with
    | zero =>
      have e : j = 46 := by omega
      subst e
      have h2 : 47 - 46 + k = k + 1 := by omega
      rw [h2, rhoVals, if_neg]
      · rfl
      · rw [ofInt_fin]
        simp
        norm_num
    | succ m ih =>
      have h2 : 47 - j + k = (47 - (j + 1) + k) + 1 := by omega
      have h3 : 47 - j = 47 - (j + 1) + 1 := by omega
      rw [h2, rhoVals, if_pos]
      · have e : (fin ((3 / 2) ^ j / 10 ^ 7) *. lit 15 1 : Ext K) = fin ((3 / 2) ^ (j + 1) / 10 ^ 7) := by
          rw [LCQ.Circle.lit_fin]
          show fin _ = fin _
          congr 1
          rw [pow_succ]
          push_cast
          ring
        rw [e, ih (j + 1) (by omega) (by omega), h3, List.range'_succ]
        rfl
      · rw [ofInt_fin]
        have h4 : ((3 : K) / 2) ^ j ≤ (3 / 2) ^ 45 := pow_le_pow_right₀ (by norm_num) (by omega)
        have h5 : ((3 : K) / 2) ^ j / 10 ^ 7 < 10 := by
          rw [div_lt_iff₀ (by positivity)]
          refine lt_of_le_of_lt h4 ?_
          norm_num
        simpa using h5
  have h := key 0 (by omega)
  rw [List.range_eq_range']
  refine Eq.trans ?_ h
  congr 1
  rw [LCQ.Circle.lit_fin]
  norm_num

/-- C79: in exact arithmetic optimize_on_circle.m ends without an error; it records one row for each of the 47 values of the initial penalty
parameter. -/
theorem C79_optimize_on_circle_ends (hd : E.dflt = Options.default qd sd) (hT : Ints E)
    {M : Int} (he : ∀ k r, 0 ≤ (E.e.qp k r).iter ∧ (E.e.qp k r).iter ≤ M) (hM : 1001 * M ≤ intMax) (fuel : Nat)
    (hN : 1 ≤ N) (d : Nat → K × K) :
    optimizeOnCircle E (47 + fuel) N (LCQ.Circle.stored d) = .ok none ∨
    ∃ c rows, circle N (LCQ.Circle.stored d) = .ok c ∧ c.Are N (LCQ.Circle.stored d) ∧
      optimizeOnCircle E (47 + fuel) N (LCQ.Circle.stored d) = .ok (some rows) ∧
      List.Forall₂ (fun j row => circleCall E (47 + fuel) c (fin ((3 / 2) ^ j / 10 ^ 7)) = .ok (some row)) (List.range 47) rows := by
  obtain ⟨c, hc, hA⟩ := circle_ok N (LCQ.Circle.stored d)
  have e : optimizeOnCircle E (47 + fuel) N (LCQ.Circle.stored d) =
      circleCalls E (47 + fuel) c ((List.range 47).map fun j => fin ((3 / 2) ^ j / 10 ^ 7)) := by
    rw [optimizeOnCircle, hc, lift_ok, mx_ok_bind, C79_rhos]
  have key : ∀ l : List Nat, circleCalls E (47 + fuel) c (l.map fun j => fin ((3 / 2) ^ j / 10 ^ 7)) = .ok none ∨
      ∃ rows, circleCalls E (47 + fuel) c (l.map fun j => fin ((3 / 2) ^ j / 10 ^ 7)) = .ok (some rows) ∧
        List.Forall₂ (fun j row => circleCall E (47 + fuel) c (fin ((3 / 2) ^ j / 10 ^ 7)) = .ok (some row)) l rows := by
    intro l
    induction l with
    | nil => exact .inr ⟨[], rfl, .nil⟩
    | cons j l ih =>
      rw [List.map_cons, circleCalls]
      rcases C79_circle E hd hT he hM (47 + fuel) hN hA (fin ((3 / 2) ^ j / 10 ^ 7)) with ⟨h, _⟩ | ⟨_, q, _, _, _, h, h'⟩
      · exact absurd h (shift_stored d hA hN [])
      · cases hq : q with
        | none => exact .inl (by rw [h hq]; rfl)
        | some r =>
          obtain ⟨_, _, _, _, _, h'⟩ := h' r hq
          rw [h', mx_ok_bind]
          dsimp only
          rcases ih with h | ⟨rows, h, hr⟩
          · exact .inl (by rw [h]; rfl)
          · exact .inr ⟨_ :: rows, by rw [h]; rfl, .cons h' hr⟩
  rcases key (List.range 47) with h | ⟨rows, h, hr⟩
  · exact .inl (e.trans h)
  · exact .inr ⟨c, rows, hc, hA, e.trans h, hr⟩

end LCQ.Script
