import Verif.Props.PythonScripts
import Verif.Props.WarmUpMore
import Verif.Props.WarmUpMax
import Verif.Props.Scalars

/-!
# C80: the results of the Python example scripts in exact arithmetic
-/

namespace LCQ.PyScript
open Scalar Ext
open WarmUp (two2 prob probA probB lowA lowB Near2)
open scoped Matrix

variable {K : Type} [Field K] [LinearOrder K] [IsStrictOrderedRing K] {e : Env (Ext K)} {M : Int}

theorem failed_nil {r : RV} (h : failed r = []) : r = .successfulReturn := by
  unfold failed at h
  split at h
  · assumption
  · cases h

/-- C80: if warm_up.py prints no message about a failure and the QP solver is exact, then the printed point is within `3·10⁻⁵` of one of
the two solutions, or of the origin; in the last case the printed penalty parameter is at least `10⁶`. -/
theorem C80_warm_up_solution (hB : AnsBnd e M) (hM : 1001 * M ≤ intMax) (he : FinAns e)
    (hE : ExactOn e two2 (IsSub (prob 0) (fun _ => fin 0) (fun _ => pinf) (fun _ => ninf) (fun _ => pinf))) {qd sd fuel : Nat}
    {out : Out (Ext K)} (h : warmUp e qd sd fuel = .ok (some out)) (hs : out.said = []) :
    ∃ (x : Fin 2 → K) (r : K), out.x = ev x ∧ out.vals[2]? = some (.num (fin r)) ∧ r ≤ 10 ^ 8 ∧ Near2 r (x 0) (x 1) := by
  obtain ⟨o, q, _, hp, hr, hn, hy⟩ := C80_warm_up e M hB hM qd sd fuel
  cases q with
  | none =>
    rw [hn rfl] at h
    injection h with h
    cases h
  | some q =>
    obtain ⟨rr, r⟩ := q
    obtain ⟨x, y, hx, _, _, _, ho⟩ := hy rr r rfl
    rw [h] at ho
    injection ho with ho
    injection ho with ho
    subst ho
    have := failed_nil hs
    subst this
    obtain ⟨hD, hR⟩ := (WarmUp.Plain.warmUp (K := K) (qd := qd) (sd := sd)).data
    obtain ⟨x0, hG, _, _⟩ := hD.good (WarmUp.warmUp_ok qd sd).toLoads hR (Or.inl rfl) he hE hp
    obtain ⟨x', rho, _, hx', hrho, hle, hnear, _⟩ := hG.result zero_le_one hr
    rw [hx] at hx'
    injection hx' with hx'
    refine ⟨x', rho, hx', ?_, hle, by simpa using hnear⟩
    show some (PyStat.num r.s.stats.rhoOpt) = _
    rw [hrho]

/-- the C++ program for the same data ends with exit code 0 -/
theorem to_main (hB : AnsBnd e M) (hM : 1001 * M ≤ intMax) {t : WarmUp.Task (Ext K)} (ht : t.Ok) (hq : t.opts.qpSolver ≠ 2) {qd sd fuel : Nat}
    {o r : Obj (Ext K)} (hp : WarmUp.prepare e qd sd t = .ok (some o)) (hr : runSolver e fuel o = .ok (some (.successfulReturn, r))) :
    ∃ x y, r.s.xk = some x ∧ r.s.yk = some y ∧ ∃ st, WarmUp.main e qd sd t fuel =
      .ok (some ⟨0, some (x, y ++ (e.alloc 1 t.ny).drop t.duals, st)⟩) := by
  obtain ⟨rv, o1, h1, hno, hyes⟩ := WarmUp.prepare_ok e qd sd ht.toLoads
  by_cases hrv : rv = .successfulReturn
  · obtain ⟨o', h, _, hpp, hopt, _, _⟩ := hyes hrv
    rw [hp] at h
    injection h with h
    injection h with h
    subst h
    obtain ⟨q, hq', hs⟩ := WarmUp.run_ok hB hM ht (fun h => absurd h hq) hpp hopt fuel
    rw [hr] at hq'
    injection hq' with hq'
    obtain ⟨x, y, hx, hy, _, _, hsh⟩ := hs r hq'.symm
    refine ⟨x, y, hx, hy, if t.stats then some (getOutputStatistics r Stats.fresh) else none, ?_⟩
    rw [WarmUp.main_of hp, hr, ok_bind]
    dsimp only
    rw [if_neg (by simp), hsh, ok_bind]
  · rw [hno hrv] at hp
    injection hp with hp
    cases hp

/-- C80: if warm_up_w_A.py prints no message about a failure and the points returned by the QP solver are within `t` of points satisfying
the linear constraints, then the printed point is within `t + k * EPS` of a point `v` that satisfies them, with `k ≤ 1000`; `x0 * x1` is
below `1000 * EPS`; and with the printed multipliers the residual of the stationarity condition is below `10⁶ * EPS`.  For `t ≤ 10⁻⁹` one
of the coordinates vanishes up to `10⁻⁶`. -/
theorem C80_w_A_solution (hB : AnsBnd e M) (hM : 1001 * M ≤ intMax) {t : K} (he : FinAns e)
    (hF : NearOn e ⟨2, 1, 1⟩ (IsSub probA lowA (fun _ => pinf) (fun _ => ninf) (fun _ => pinf)) t) {qd sd fuel : Nat}
    {out : Out (Ext K)} (h : withA e qd sd fuel = .ok (some out)) (hs : out.said = []) :
    ∃ (k : Nat) (x v : Fin 2 → K) (y : Fin 5 → K), k ≤ 1000 ∧ out.x = ev x ∧ out.y = ev y ∧ -1 / 2 ≤ v 0 - v 1 ∧ 0 ≤ v 0 ∧ 0 ≤ v 1 ∧
      (∀ i, |x i - v i| ≤ t + k * epsK) ∧ x 0 * x 1 < 1000 * epsK ∧
      |2 * x 0 - 2 - y 2 - y 3 - y 0| < 10 ^ 6 * epsK ∧ |2 * x 1 - 2 + y 2 - y 4 - y 1| < 10 ^ 6 * epsK ∧
      (t ≤ 1 / 10 ^ 9 → (|x 0| ≤ 1 / 10 ^ 6 ∧ -(1 / 10 ^ 5) ≤ x 1 ∧ x 1 ≤ 1 / 2 + 1 / 10 ^ 5) ∨ (|x 1| ≤ 1 / 10 ^ 6 ∧ -(1 / 10 ^ 5) ≤ x 0)) := by
  obtain ⟨o, q, _, hp, hr, hn, hy⟩ := C80_w_A e M hB hM qd sd fuel
  cases q with
  | none =>
    rw [hn rfl] at h
    injection h with h
    cases h
  | some q =>
    obtain ⟨rr, r⟩ := q
    obtain ⟨x, y, hx, hyk, _, ly, ho⟩ := hy rr r rfl
    rw [h] at ho
    injection ho with ho
    injection ho with ho
    subst ho
    have := failed_nil hs
    subst this
    obtain ⟨x', y', hx', hy', st, hm⟩ := to_main hB hM (WarmUp.withA_ok qd sd) (show (0 : Int) ≠ 2 by decide) hp hr
    rw [hx] at hx'
    injection hx' with hx'
    subst hx'
    rw [hyk] at hy'
    injection hy' with hy'
    subst hy'
    obtain ⟨k, x1, v, y1, h1, h2, h3, h4, h5, h6, h7, h8, h9, h10⟩ := WarmUp.C77_withA he hF hm
    have hd : List.drop (WarmUp.withA qd sd : WarmUp.Task (Ext K)).duals (e.alloc 1 (WarmUp.withA qd sd : WarmUp.Task (Ext K)).ny) = [] := by
      refine List.drop_of_length_le ?_
      rw [show (WarmUp.withA qd sd : WarmUp.Task (Ext K)).duals = 5 from rfl]
      simp [Env.alloc, WarmUp.withA]
    rw [hd, List.append_nil] at h3
    refine ⟨k, x1, v, y1, h1, h2, h3, h4, h5, h6, h7, h8, h9, h10, fun ht => ?_⟩
    obtain ⟨x2, g1, g2⟩ := WarmUp.C77_withA_axis ht he hF hm
    rw [h2] at g1
    rw [ev_inj g1]
    exact g2

/-- C80: with exact QP answers, none of which reports a failure, test_max_penalty.py always prints that the test succeeded, and nothing
else. -/
theorem C80_max_exact (hB : AnsBnd e M) (hM : 1001 * M ≤ intMax) (he : FinAns e)
    (hE : ExactOn e two2 (IsSub (prob 0) (fun _ => fin 0) (fun _ => pinf) (fun _ => ninf) (fun _ => pinf)))
    (hret : ∀ k q, (e.qp k q).ret = 0) (qd sd : Nat) {fuel : Nat} (hf : 1001 ≤ fuel) :
    maxPenalty e qd sd fuel = .ok (some ["Succeeded test (failed to solve LCQP due to maximal penalty)."]) := by
  obtain ⟨o, q, _, hp, hr, hm⟩ := C80_max e M hB hM qd sd fuel
  obtain ⟨-, o1, o', hp', hr', -⟩ := WarmUp.C77_max hB hM he hE hret qd sd hf
  have ho : o = o1 := Option.some.inj (Except.ok.inj (hp.symm.trans hp'))
  have hq : q = some (.maxPenaltyReached, o') := by
    rw [← ho] at hr'
    exact Except.ok.inj (hr.symm.trans hr')
  rw [hm, hq, Option.map_some, if_pos rfl]

/-! ## warm_up_binary.py -/

theorem binaryPy_are (u v : K) : (binaryArgs [fin u, fin v]).args.Are ⟨2, 0, 2⟩ probB ![u, v] := by
  rw [binary_args 0 0]
  have h := WarmUp.binary_are (K := K) 0 0
  exact { h with
    fits := by rw [← binary_args 0 0]; exact binary_fits _ _
    x0 := Or.inr ⟨[u, v], rfl, le_refl _, by ext i; fin_cases i <;> rfl⟩ }

theorem binary_bounds {o : Obj (Ext K)} {u v : Ext K} (hSt : Stored o ⟨2, 0, 2⟩ (binaryArgs [u, v]).args.bnds) :
    BoundsAre o ⟨2, 0, 2⟩ lowB (fun _ => pinf) (fun _ => ninf) (fun _ => pinf) := by
  refine ⟨?_, ?_, ?_, ?_⟩
  · rw [hSt.lbA]
    refine congrArg some ?_
    show (([] ++ [ofInt 0, ofInt 0] ++ [ofInt 0, -. lit 5 1] : List (Ext K))) = List.ofFn (lowB : Fin 4 → Ext K)
    rw [WarmUp.lowB_list, WarmUp.half_fin, WarmUp.ofInt_fin]
    simp
  · rw [hSt.ubA]
    rfl
  · rw [hSt.lb]
    rfl
  · rw [hSt.ub]
    rfl

/-- C80: if the second run of warm_up_binary.py returned success and the points returned by the QP solver are within `t ≤ 10⁻⁹` of
points satisfying the linear constraints, then the first coordinate of the printed point is 0 or 1/2 up to `10⁻⁸`, and in the second
case the second coordinate vanishes up to `10⁻⁸`.  (That the object was used before has no effect on this.) -/
theorem C80_binary_solution (hB : AnsBnd e M) (hM : 1001 * M ≤ intMax) {t : K} (ht : t ≤ 1 / 10 ^ 9) (he : FinAns e)
    (hF : NearOn e ⟨2, 0, 2⟩ (IsSub probB lowB (fun _ => pinf) (fun _ => ninf) (fun _ => pinf)) t) {qd sd fuel : Nat}
    {out : Out (Ext K)} (h : binary e qd sd fuel = .ok (some out)) (hs : out.said = []) :
    ∃ x : Fin 2 → K, out.x = ev x ∧ -(1 / 10 ^ 8) ≤ x 1 ∧ (|x 0| ≤ 1 / 10 ^ 8 ∨ (|x 0 - 1 / 2| ≤ 1 / 10 ^ 8 ∧ |x 1| ≤ 1 / 10 ^ 8)) ∧
      x 0 * x 1 + x 0 * (1 / 2 - x 0) < 1000 * epsK := by
  have h0 : ((ofInt 0 : Ext K) <=. (-. inf)) = false := by rw [WarmUp.ofInt_fin]; rfl
  have h1 : ((-. lit 5 1 : Ext K) <=. (-. inf)) = false := by rw [WarmUp.half_fin]; rfl
  obtain ⟨o, q, _, _, hn, hy⟩ := binary_run e hB hM h0 h1 qd sd fuel
  cases q with
  | none =>
    rw [hn rfl] at h
    injection h with h
    cases h
  | some q =>
    obtain ⟨r1, o'⟩ := q
    obtain ⟨opts, o2, q2, hopts, hb, hl, hu, hload, hopt, hr, hn2, hy⟩ := hy r1 o' rfl
    cases q2 with
    | none =>
      rw [hn2 rfl] at h
      injection h with h
      cases h
    | some q2 =>
      obtain ⟨r2, o3⟩ := q2
      obtain ⟨x, y, hx, _, _, _, ho⟩ := hy r2 o3 rfl
      rw [h] at ho
      injection ho with ho
      injection ho with ho
      subst ho
      have := failed_nil (List.append_eq_nil_iff.mp hs).2
      subst this
      obtain ⟨opts', ho', _, hit, heq⟩ := binaryOptions_ok (α := Ext K) qd sd
      rw [hopts] at ho'
      injection ho' with ho'
      subst ho'
      have hrho : opts = { (WarmUp.opts qd sd 0 : Options (Ext K)) with zeroFirst := false, rho0 := fin 10 } := by
        have h10 : (ofInt 10 : Ext K) = fin 10 := by rw [WarmUp.ofInt_fin]; norm_num
        rw [heq, h10]
        unfold Options.setRho0
        rw [if_neg]
        · simp [zeroTol, WarmUp.lit_fin]
          norm_num
      have hf : (two : Ext K) = fin 2 := by rw [two, WarmUp.lit_fin]; norm_num
      have hts : opts.statTol = fin (10 ^ 6 * epsK) := by
        rw [hrho]
        show (lit 1000000 0 *. eps : Ext K) = _
        simp [eps, WarmUp.lit_fin, epsK]
        norm_num
      have htc : opts.complTol = fin (1000 * epsK) := by
        rw [hrho]
        show (lit 1000 0 *. eps : Ext K) = _
        simp [eps, WarmUp.lit_fin, epsK]
      have hload' : loadDense e (setOptions o' opts) (binaryArgs [fin ((0 : Int) : K), fin ((3000 : Int) : K)]).args = .ok (.successfulReturn, o2) := by
        rw [← WarmUp.ofInt_fin, ← WarmUp.ofInt_fin]
        exact hload
      have hare := binaryPy_are ((0 : Int) : K) ((3000 : Int) : K)
      obtain ⟨hS, _⟩ := Setup.dense_low (l := probB.lbL) (r := probB.lbR) (r0 := 10) (f := 2) hb (by
        intro o4 e1 e2 _ _
        right
        have g1 : (binaryArgs [fin ((0 : Int) : K), fin ((3000 : Int) : K)]).args.lbL = some (emb [0, 0]) := by
          show (some [ofInt 0, ofInt 0] : Option (List (Ext K))) = _
          simp [WarmUp.ofInt_fin, emb]
        have g2 : (binaryArgs [fin ((0 : Int) : K), fin ((3000 : Int) : K)]).args.lbR = some (emb [0, -1 / 2]) := by
          show (some [ofInt 0, -. lit 5 1] : Option (List (Ext K))) = _
          rw [WarmUp.half_fin]
          simp [WarmUp.ofInt_fin, emb]
        rw [g1] at e1
        rw [g2] at e2
        exact ⟨⟨[0, 0], e1, rfl, by ext i; fin_cases i <;> rfl⟩, ⟨[0, -1 / 2], e2, rfl, by ext i; fin_cases i <;> rfl⟩⟩) hare hload' (by show opts.rho0 = _; rw [hrho]) (by show opts.factor = _; rw [hrho]; exact hf) two_ne_zero he
      have hSt := Stored.dense hb (show (setOptions o' opts).d.lbTmp = none from hl) (show (setOptions o' opts).d.ubTmp = none from hu)
        hare.fits hload'
      have hBnd := binary_bounds hSt
      obtain ⟨k, x1, _, hk, hx1, v, hv, hxv⟩ := C37_returned hS hBnd hF hr
      obtain ⟨off, r, b, x2, y2, _, _, _, hx2, _, _, _, hphi, _⟩ :=
        success_x hS (ts := 10 ^ 6 * epsK) (tc := 1000 * epsK) (by rw [hopt]; exact hts) (by rw [hopt]; exact htc) hr
      have e1 : x1 = x2 := ev_inj (Option.some.inj (hx1.symm.trans hx2))
      subst e1
      rw [hx] at hx1
      injection hx1 with hx1
      have hv := (WarmUp.C77_meaningB v).1.mp hv
      rw [hopt, hit] at hk
      have hk : (k : Int) ≤ max 0 1000 := hk
      have hphi' : x1 0 * x1 1 + x1 0 * (1 / 2 - x1 0) < 1000 * epsK := lt_of_eq_of_lt (WarmUp.C77_meaningB x1).2.1.symm hphi
      obtain ⟨g1, g2⟩ := WarmUp.binary_close ht (by omega) hv.1 hv.2.1 hv.2.2 hxv hphi'
      exact ⟨x1, hx1, g1, g2, hphi'⟩

/-! ## warm_up_osqp.py -/

omit [LinearOrder K] [IsStrictOrderedRing K] in
theorem prob0_C (i j : Fin 2) : (prob (0 : K)).C i j = if i = j then 0 else 1 := by
  fin_cases i <;> fin_cases j <;> simp [Prob.C, prob, Matrix.mul_apply]

theorem osqp_are : (osqpData : PySparse (Ext K)).args.Are two2 (prob 0) 0 := by
  refine ⟨osqp_fits, ⟨⟨2, 2, 2, [0, 1, 2], [0, 1], [2, 2]⟩, ?_, ?_⟩, ⟨[-2, -2], ?_, le_refl _, ?_⟩, Or.inl ⟨rfl, by ext i; exact i.elim0⟩,
    ⟨⟨1, 2, 1, [0, 1, 1], [0], [1]⟩, ?_, ?_, ?_⟩, ⟨⟨1, 2, 1, [0, 0, 1], [0], [1]⟩, ?_, ?_, ?_⟩, Or.inl ⟨rfl, rfl, rfl, rfl⟩,
    Or.inl ⟨rfl, rfl⟩, ?_⟩
  · show some (osqpQ : CSC (Ext K)) = _
    simp [osqpQ, createCSC, CSC.emb, emb, WarmUp.ofInt_fin]
  · ext i j
    fin_cases i <;> fin_cases j <;> simp [CSC.den, CSC.P, CSC.I, prob]
  · show (some [ofInt (-2), ofInt (-2)] : Option (List (Ext K))) = _
    simp [emb, WarmUp.ofInt_fin]
  · ext i
    fin_cases i <;> simp [vec, prob]
  · show some (osqpL : CSC (Ext K)) = _
    simp [osqpL, createCSC, CSC.emb, emb, WarmUp.ofInt_fin]
  · exact fun j hj k l h1 h2 h3 => absurd h3 (by
      have : ∀ j < 2, ([(0 : Int), 1, 1].getD (j + 1) 0).toNat ≤ ([(0 : Int), 1, 1].getD j 0).toNat + 1 := by decide
      have := this j hj
      simp only [CSC.P] at h1 ⊢
      omega)
  · ext i j
    fin_cases i <;> fin_cases j <;> simp [CSC.den, CSC.P, CSC.I, prob]
  · show some (osqpR : CSC (Ext K)) = _
    simp [osqpR, createCSC, CSC.emb, emb, WarmUp.ofInt_fin]
  · exact fun j hj k l h1 h2 h3 => absurd h3 (by
      have : ∀ j < 2, ([(0 : Int), 0, 1].getD (j + 1) 0).toNat ≤ ([(0 : Int), 0, 1].getD j 0).toNat + 1 := by decide
      have := this j hj
      simp only [CSC.P] at h1 ⊢
      omega)
  · ext i j
    fin_cases i <;> fin_cases j <;> simp [CSC.den, CSC.P, CSC.I, prob]
  · intro i j
    rw [prob0_C]
    split
    · exact Or.inl rfl
    · right
      rw [abs_one]
      norm_num

/-- C80: if warm_up_osqp.py prints no message about a failure and the QP solver is exact (OSQP is not), then the printed point is within
`3·10⁻⁵` of one of the two solutions, or of the origin; in the last case the printed penalty parameter is at least `10⁶`. -/
theorem C80_osqp_solution (hB : AnsBnd e M) (hM : 1001 * M ≤ intMax) (he : FinAns e)
    (hE : ExactOn e two2 (IsSub (prob 0) (fun _ => fin 0) (fun _ => pinf) (fun _ => ninf) (fun _ => pinf)))
    (hs : ∀ r, (e.qp 0 r).setup = true ∧ (e.qp 0 r).warmX = true ∧ (e.qp 0 r).warmY = true) {qd sd fuel : Nat}
    {out : Out (Ext K)} (h : osqp e qd sd fuel = .ok (some out)) (hn : out.said = []) :
    ∃ (x : Fin 2 → K) (r : K), out.x = ev x ∧ out.vals[2]? = some (.num (fin r)) ∧ r ≤ 10 ^ 8 ∧ Near2 r (x 0) (x 1) := by
  have hz : isZero (zero +. ofInt 1 *. ofInt 1 : Ext K) = false := by
    rw [WarmUp.ofInt_fin, zero_fin]
    have hz : (fin 0 +. fin ((1 : Int) : K) *. fin ((1 : Int) : K) : Ext K) = fin 1 := by simp
    rw [hz, ← Bool.not_eq_true, (C66_finite (1 : K) 0 0).2.2.2.1, abs_one]
    norm_num
  obtain ⟨hb, o, q, hl, hopt, hr, hno, hy⟩ := osqp_run e hB hM hz hs qd sd fuel
  cases q with
  | none =>
    rw [hno rfl] at h
    injection h with h
    cases h
  | some q =>
    obtain ⟨rr, r⟩ := q
    obtain ⟨x, y, hx, _, _, _, ho⟩ := hy rr r rfl
    rw [h] at ho
    injection ho with ho
    injection ho with ho
    subst ho
    have := failed_nil hn
    subst this
    have h1 : (lit 1 2 : Ext K) = fin (1 / 100) := by rw [WarmUp.lit_fin]; norm_num
    have h2 : (two : Ext K) = fin 2 := by rw [two, WarmUp.lit_fin]; norm_num
    have hl' : loadSparse e (problem qd sd 2 0 1 (WarmUp.opts qd sd 2)) osqpData.args = .ok (.successfulReturn, o) := hl
    obtain ⟨hS, _⟩ := Setup.sparse hb rfl ⟨rfl, rfl, rfl, zero_fin⟩ osqp_are hl' (r0 := 1 / 100) (f := 2) h1 h2 two_ne_zero he
    have hSt := Stored.sparse hb rfl rfl osqp_fits hl'
    have hG : WarmUp.Good e o 0 (10 ^ 8) 0 := by
      refine ⟨hS, ⟨?_, ?_, ?_, ?_⟩, hE, ?_, ?_, ?_, ?_, ?_, by positivity, le_refl _⟩
      · rw [hSt.lbA]
        rfl
      · rw [hSt.ubA]
        rfl
      · rw [hSt.lb]
        rfl
      · rw [hSt.ub]
        rfl
      · rw [hopt]; rfl
      · rw [hopt]
        show (lit 100000000 0 : Ext K) = _
        rw [WarmUp.lit_fin]
        norm_num
      · rw [hopt]
        show (lit 1000000 0 *. eps : Ext K) = _
        simp [WarmUp.lit_fin, eps]
        norm_num
      · rw [hopt]
        show (lit 1000 0 *. eps : Ext K) = _
        simp [WarmUp.lit_fin, eps]
        norm_num
      · rw [hopt]; rfl
    obtain ⟨x', rho, _, hx', hrho, hle, hnear, _⟩ := hG.result zero_le_one hr
    rw [hx] at hx'
    injection hx' with hx'
    refine ⟨x', rho, hx', ?_, hle, by simpa using hnear⟩
    show some (PyStat.num r.s.stats.rhoOpt) = _
    rw [hrho]

/-! ## OptimizeOnCircle.py -/

/-- C80: in exact arithmetic the arguments of OptimizeOnCircle.py and OptimizeOnCircleStoreSteps.py are those of OptimizeOnCircle.cpp, for
every number of directions. -/
theorem C80_circle_exact {N : Nat} (hN : 1 ≤ N) (dir : Nat → Ext K × Ext K) :
    ∃ a b, circleArrays N dir = .ok a ∧ Circle.build N dir = .ok b ∧ a.args.args = b.args := by
  obtain ⟨a, b, ha, hb, hB, h, hg⟩ := circle_same hN dir
  refine ⟨a, b, ha, hb, ?_⟩
  have hl : ∀ j, (lin j : Ext K) = Circle.lin j := by
    intro j
    by_cases h0 : j = 0
    · subst h0
      simp [lin, Circle.lin, WarmUp.lit_fin]
    · by_cases h1 : j = 1
      · subst h1
        simp [lin, Circle.lin, WarmUp.lit_fin]
      · rw [lin, if_neg h0, if_neg h1, Circle.lin, if_neg (show ¬ j < 2 by omega)]
  have : a.g = b.g := VecHas.ext ⟨hg.1, fun i hi => by rw [hg.2 i hi, hl]⟩ hB.g
  rw [h, this]
  rfl

end LCQ.PyScript
