import Verif.Props.WarmUp
import Verif.Props.Certify

/-!
# C77: the programs with more constraints
-/

namespace LCQ.WarmUp
open Scalar Ext
open scoped Matrix

variable {K : Type} [Field K] [LinearOrder K] [IsStrictOrderedRing K] {e : Env (Ext K)}

omit [IsStrictOrderedRing K] in
theorem ofInt_fin (m : Int) : (ofInt m : Ext K) = fin (m : K) := by simp [ofInt, lit_fin]

theorem half_fin : (-. (lit 5 1 : Ext K)) = fin (-1 / 2) := by
  rw [lit_fin]
  simp
  norm_num

/-- C77: what the data mean. -/
theorem C77_meaningA (x : Fin 2 → K) :
    (Feasible probA lowA (fun _ => pinf) (fun _ => ninf) (fun _ => pinf) x ↔ -1 / 2 ≤ x 0 - x 1 ∧ 0 ≤ x 0 ∧ 0 ≤ x 1) ∧
    probA.phi x = x 0 * x 1 ∧ probA.obj x = (x 0 - 1) ^ 2 + (x 1 - 1) ^ 2 - 2 := by
  have a0 : (probA.AA *ᵥ x) (0 : Fin 3) = x 0 - x 1 := by
    simp [Prob.AA, probA, stackRows, Matrix.mulVec, dotProduct, Fin.sum_univ_two]
    try ring
  have a1 : (probA.AA *ᵥ x) (1 : Fin 3) = x 0 := by
    simp [Prob.AA, probA, stackRows, Matrix.mulVec, dotProduct, Fin.sum_univ_two]
  have a2 : (probA.AA *ᵥ x) (2 : Fin 3) = x 1 := by
    simp [Prob.AA, probA, stackRows, Matrix.mulVec, dotProduct, Fin.sum_univ_two]
  refine ⟨?_, ?_, ?_⟩
  · constructor
    · intro h
      have h0 : (fin (-1 / 2) <=. fin ((probA.AA *ᵥ x) (0 : Fin 3))) = true := h.lA (0 : Fin 3)
      have h1 : (fin 0 <=. fin ((probA.AA *ᵥ x) (1 : Fin 3))) = true := h.lA (1 : Fin 3)
      have h2 : (fin 0 <=. fin ((probA.AA *ᵥ x) (2 : Fin 3))) = true := h.lA (2 : Fin 3)
      rw [a0] at h0
      rw [a1] at h1
      rw [a2] at h2
      exact ⟨by simpa using h0, by simpa using h1, by simpa using h2⟩
    · rintro ⟨h0, h1, h2⟩
      refine ⟨fun i => ?_, fun i => ?_, fun i => ?_, fun i => ?_⟩
      · show (lowA i <=. fin ((probA.AA *ᵥ x) i)) = true
        change Fin 3 at i
        fin_cases i
        · show (fin (-1 / 2) <=. fin ((probA.AA *ᵥ x) (0 : Fin 3))) = true
          rw [a0]; simpa using h0
        · show (fin 0 <=. fin ((probA.AA *ᵥ x) (1 : Fin 3))) = true
          rw [a1]; simpa using h1
        · show (fin 0 <=. fin ((probA.AA *ᵥ x) (2 : Fin 3))) = true
          rw [a2]; simpa using h2
      all_goals rfl
  · simp [Prob.phi, probA, dotProduct, Fin.sum_univ_two]
  · simp [Prob.obj, probA, dotProduct, Matrix.mulVec, Fin.sum_univ_two]
    ring

/-- C77: what the data mean. -/
theorem C77_meaningB (x : Fin 2 → K) :
    (Feasible probB lowB (fun _ => pinf) (fun _ => ninf) (fun _ => pinf) x ↔ 0 ≤ x 0 ∧ x 0 ≤ 1 / 2 ∧ 0 ≤ x 1) ∧
    probB.phi x = x 0 * x 1 + x 0 * (1 / 2 - x 0) ∧ probB.obj x = (x 0 - 1) ^ 2 + (x 1 - 1) ^ 2 - 2 := by
  have a0 : (probB.AA *ᵥ x) (0 : Fin 4) = x 0 := by
    simp [Prob.AA, probB, stackRows, Matrix.mulVec, dotProduct, Fin.sum_univ_two]
  have a1 : (probB.AA *ᵥ x) (1 : Fin 4) = x 0 := by
    simp [Prob.AA, probB, stackRows, Matrix.mulVec, dotProduct, Fin.sum_univ_two]
  have a2 : (probB.AA *ᵥ x) (2 : Fin 4) = x 1 := by
    simp [Prob.AA, probB, stackRows, Matrix.mulVec, dotProduct, Fin.sum_univ_two]
  have a3 : (probB.AA *ᵥ x) (3 : Fin 4) = -x 0 := by
    simp [Prob.AA, probB, stackRows, Matrix.mulVec, dotProduct, Fin.sum_univ_two]
  refine ⟨?_, ?_, ?_⟩
  · constructor
    · intro h
      have h0 : (fin 0 <=. fin ((probB.AA *ᵥ x) (0 : Fin 4))) = true := h.lA (0 : Fin 4)
      have h2 : (fin 0 <=. fin ((probB.AA *ᵥ x) (2 : Fin 4))) = true := h.lA (2 : Fin 4)
      have h3 : (fin (-1 / 2) <=. fin ((probB.AA *ᵥ x) (3 : Fin 4))) = true := h.lA (3 : Fin 4)
      rw [a0] at h0
      rw [a2] at h2
      rw [a3] at h3
      have h3' : -1 / 2 ≤ -x 0 := by simpa using h3
      exact ⟨by simpa using h0, by linarith, by simpa using h2⟩
    · rintro ⟨h0, h1, h2⟩
      refine ⟨fun i => ?_, fun i => ?_, fun i => ?_, fun i => ?_⟩
      · show (lowB i <=. fin ((probB.AA *ᵥ x) i)) = true
        change Fin 4 at i
        fin_cases i
        · show (fin 0 <=. fin ((probB.AA *ᵥ x) (0 : Fin 4))) = true
          rw [a0]; simpa using h0
        · show (fin 0 <=. fin ((probB.AA *ᵥ x) (1 : Fin 4))) = true
          rw [a1]; simpa using h0
        · show (fin 0 <=. fin ((probB.AA *ᵥ x) (2 : Fin 4))) = true
          rw [a2]; simpa using h2
        · show (fin (-1 / 2) <=. fin ((probB.AA *ᵥ x) (3 : Fin 4))) = true
          rw [a3]
          have : -1 / 2 ≤ -x 0 := by linarith
          simpa using this
      all_goals rfl
  · simp [Prob.phi, probB, dotProduct, Fin.sum_univ_two]
    left
    ring
  · simp [Prob.obj, probB, dotProduct, Matrix.mulVec, Fin.sum_univ_two]
    ring

/-- the run behind exit code 0 and what is printed -/
theorem main_run {t : Task (Ext K)} (ht : t.Ok) {P : Prob K t.dims} {x0 : Fin t.dims.nV → K} {r0 f ts tc : K} (ha : t.args.Are t.dims P x0)
    {qd sd : Nat} (hr : t.opts.rho0 = fin r0) (hf : t.opts.factor = fin f)
    (hr' : (Options.default qd sd : Options (Ext K)).rho0 = fin r0) (hf' : (Options.default qd sd : Options (Ext K)).factor = fin f)
    (hts : t.opts.statTol = fin ts) (htc : t.opts.complTol = fin tc)
    (f0 : f ≠ 0) (he : FinAns e) {fuel : Nat} {xs ys : List (Ext K)} {st : Option (Stats (Ext K))}
    (h : main e qd sd t fuel = .ok (some ⟨0, some (xs, ys, st)⟩)) :
    ∃ (o o' : Obj (Ext K)) (off : Nat) (r : K) (b : Bool) (x : Fin t.dims.nV → K) (y : Fin (off + t.dims.nA) → K),
      Setup e o t.dims P x0 r0 f ∧ Stored o t.dims t.args.bnds ∧ o.d.opts = t.opts ∧
      runSolver e fuel o = .ok (some (.successfulReturn, o')) ∧ off + t.dims.nA = t.duals ∧
      o'.s.xk = some (ev x) ∧ o'.s.yk = some (ev (P.shifted r x y)) ∧ P.phi x < tc ∧ (∀ i, |P.stat o.d.sparse r b x y i| < ts) ∧
      OutB o'.s b ∧ xs = ev x ∧ ys = ev (P.shifted r x y) ++ (e.alloc 1 t.ny).drop t.duals ∧
      st = if t.stats then some (getOutputStatistics o' Stats.fresh) else none := by
  rw [main] at h
  obtain ⟨po, hpo, h⟩ := bind_eq_ok.mp h
  cases po with
  | none => simp at h
  | some o =>
    obtain ⟨hS, hSt, hopt, hp⟩ := prepare_setup ht.toLoads ha hr hf hr' hf' f0 he hpo
    dsimp only at h
    obtain ⟨q, hq, h⟩ := bind_eq_ok.mp h
    cases q with
    | none => simp at h
    | some r =>
      obtain ⟨rv, o'⟩ := r
      dsimp only at h
      split at h
      · simp at h
      · rename_i hrv
        rw [not_not] at hrv
        subst hrv
        obtain ⟨out, hout, h⟩ := bind_eq_ok.mp h
        injection h with h
        injection h with h
        subst h
        obtain ⟨off, r, b, x, y, hD, _, hb, hx, _, _, hy, hphi, hst⟩ :=
          success_x hS (ts := ts) (tc := tc) (by rw [hopt]; exact hts) (by rw [hopt]; exact htc) hq
        obtain ⟨i, hi, hc⟩ := runSolver_inv hq
        have hi1 : i.1 = .successfulReturn := by
          rcases hc with ⟨hne, hr⟩ | ⟨h, _⟩
          · injection hr with hr _
            exact hr.symm
          · exact h
        have hn := (initializeSolver_duals hS.ready.dims hS.ready.nV hi hi1).1
        have hdd : o'.d = i.2.d := (run_ended hq hi hi1).1
        rw [hopt, ← hdd] at hn
        have hn' : o'.d.nDuals = some t.duals := hn
        have hoff := hD.nDuals
        rw [hn'] at hoff
        injection hoff with hoff
        obtain ⟨a, hal⟩ := run_algo hq hi hi1
        have := show_ok e ht hD.dims hn' hal hx (by simp [Task.dims]) hy (by rw [hoff]; simp)
        rw [this] at hout
        injection hout with hout
        injection hout with _ hout
        injection hout with hout
        injection hout with h1 hout
        injection hout with h2 h3
        exact ⟨o, o', off, r, b, x, y, hS, hSt, hopt, hq, hoff.symm, hx, hy, hphi, hst, hb, h1.symm, h2.symm, h3.symm⟩

omit [IsStrictOrderedRing K] in
theorem lowA_list : List.ofFn (lowA : Fin 3 → Ext K) = [fin (-1 / 2), fin 0, fin 0] := rfl

omit [IsStrictOrderedRing K] in
theorem lowB_list : List.ofFn (lowB : Fin 4 → Ext K) = [fin 0, fin 0, fin 0, fin (-1 / 2)] := rfl

omit [LinearOrder K] [IsStrictOrderedRing K] in
theorem probA_gPhi : (probA : Prob K ⟨2, 1, 1⟩).gPhi = 0 := by
  funext i
  show -((probA.Rᵀ *ᵥ (0 : Fin 1 → K) + probA.Lᵀ *ᵥ (0 : Fin 1 → K)) i) = 0
  simp

omit [LinearOrder K] [IsStrictOrderedRing K] in
theorem probA_res (x : Fin 2 → K) (y : Fin 5 → K) : Prob.residual (off := 2) probA x y (0 : Fin 2) = 2 * x 0 - 2 - y 2 - y 3 - y 0 ∧
    Prob.residual (off := 2) probA x y (1 : Fin 2) = 2 * x 1 - 2 + y 2 - y 4 - y 1 := by
  have key : ∀ i : Fin 2, Prob.residual (off := 2) probA x y i =
      (∑ j, probA.Q i j * x j) + probA.g i - (∑ j : Fin 1, probA.Aᵀ i j * y 2) - (∑ j : Fin 1, probA.Lᵀ i j * y 3) -
        (∑ j : Fin 1, probA.Rᵀ i j * y 4) - yBox (n := ⟨2, 1, 1⟩) (off := 2) y i := fun i => by
    have e1 : ∀ j : Fin 1, yA (n := ⟨2, 1, 1⟩) (yLin (off := 2) y) j = y 2 := fun j => by fin_cases j; rfl
    have e2 : ∀ j : Fin 1, yL (n := ⟨2, 1, 1⟩) (yLin (off := 2) y) j = y 3 := fun j => by fin_cases j; rfl
    have e3 : ∀ j : Fin 1, yR (n := ⟨2, 1, 1⟩) (yLin (off := 2) y) j = y 4 := fun j => by fin_cases j; rfl
    show (∑ j, probA.Q i j * x j) + probA.g i - (∑ j : Fin 1, probA.Aᵀ i j * yA (n := ⟨2, 1, 1⟩) (yLin (off := 2) y) j) -
      (∑ j : Fin 1, probA.Lᵀ i j * yL (n := ⟨2, 1, 1⟩) (yLin (off := 2) y) j) -
        (∑ j : Fin 1, probA.Rᵀ i j * yR (n := ⟨2, 1, 1⟩) (yLin (off := 2) y) j) - yBox (n := ⟨2, 1, 1⟩) (off := 2) y i = _
    simp only [e1, e2, e3]
  have b0 : yBox (n := ⟨2, 1, 1⟩) (off := 2) y (0 : Fin 2) = y 0 := rfl
  have b1 : yBox (n := ⟨2, 1, 1⟩) (off := 2) y (1 : Fin 2) = y 1 := rfl
  rw [key, key, b0, b1]
  simp only [Fin.sum_univ_two, Fin.sum_univ_one, probA, Matrix.transpose_apply]
  simp
  constructor <;> ring

theorem withA_are (qd sd : Nat) : (withA qd sd : Task (Ext K)).args.Are ⟨2, 1, 1⟩ probA 0 := by
  have hQ : (base : DenseArgs (Ext K)).Q = some (emb [2, 0, 0, 2]) := by simp [base, ofInt_fin, emb]
  have hL : (base : DenseArgs (Ext K)).L = some (emb [1, 0]) := by simp [base, ofInt_fin, emb]
  have hR : (base : DenseArgs (Ext K)).R = some (emb [0, 1]) := by simp [base, ofInt_fin, emb]
  have hg : (base : DenseArgs (Ext K)).g = some (emb [-2, -2]) := by simp [base, ofInt_fin, emb]
  have hA : (withA qd sd : Task (Ext K)).args.A = some (emb [1, -1]) := by simp [withA, ofInt_fin, emb]
  refine ⟨(withA_ok qd sd).fits, ⟨_, hQ, by simp, ?_⟩, ⟨_, hg, by simp, ?_⟩, Or.inr ⟨_, hA, by simp, ?_⟩, ⟨_, hL, by simp, ?_⟩,
    ⟨_, hR, by simp, ?_⟩, Or.inl ⟨rfl, rfl, rfl, rfl⟩, Or.inl ⟨rfl, rfl⟩⟩
  · ext i j
    fin_cases i <;> fin_cases j <;> rfl
  · ext i
    fin_cases i <;> rfl
  · ext i j
    fin_cases i <;> fin_cases j <;> rfl
  · ext i j
    fin_cases i <;> fin_cases j <;> rfl
  · ext i j
    fin_cases i <;> fin_cases j <;> rfl

theorem binary_are (qd sd : Nat) : (binary qd sd : Task (Ext K)).args.Are ⟨2, 0, 2⟩ probB 0 := by
  have hQ : (base : DenseArgs (Ext K)).Q = some (emb [2, 0, 0, 2]) := by simp [base, ofInt_fin, emb]
  have hg : (base : DenseArgs (Ext K)).g = some (emb [-2, -2]) := by simp [base, ofInt_fin, emb]
  have hL : (binary qd sd : Task (Ext K)).args.L = some (emb [1, 0, 1, 0]) := by simp [binary, ofInt_fin, emb]
  have hR : (binary qd sd : Task (Ext K)).args.R = some (emb [0, 1, -1, 0]) := by simp [binary, ofInt_fin, emb]
  have h1 : (binary qd sd : Task (Ext K)).args.lbL = some (emb [0, 0]) := by simp [binary, ofInt_fin, emb]
  have h2 : (binary qd sd : Task (Ext K)).args.lbR = some (emb [0, -1 / 2]) := by simp [binary, ofInt_fin, emb, half_fin]
  have h3 : (binary qd sd : Task (Ext K)).args.x0 = some (emb [0, 0]) := by simp [binary, ofInt_fin, emb]
  refine ⟨(binary_ok qd sd).fits, ⟨_, hQ, by simp, ?_⟩, ⟨_, hg, by simp, ?_⟩, Or.inl ⟨rfl, rfl⟩, ⟨_, hL, by simp, ?_⟩,
    ⟨_, hR, by simp, ?_⟩, Or.inr ⟨⟨_, h1, by simp, ?_⟩, ⟨_, h2, by simp, ?_⟩⟩, Or.inr ⟨_, h3, by simp, ?_⟩⟩
  · ext i j
    fin_cases i <;> fin_cases j <;> rfl
  · ext i
    fin_cases i <;> rfl
  · ext i j
    fin_cases i <;> fin_cases j <;> rfl
  · ext i j
    fin_cases i <;> fin_cases j <;> rfl
  · ext i
    fin_cases i <;> rfl
  · ext i
    fin_cases i <;> rfl
  · ext i
    fin_cases i <;> rfl

/-- C77: if warm_up_w_A.cpp ends with exit code 0 and the points returned by the QP solver are within `t` of points satisfying the
linear constraints, then `xOpt` is within `t + k * EPS` of a point `v` that satisfies them, with `k ≤ 1000`; `x0 * x1` is below
`1000 * EPS`; and with the printed multipliers (of the box constraints, the linear constraint, and the pair) the residual of the
stationarity condition is below `10⁶ * EPS`. -/
theorem C77_withA {t : K} (he : FinAns e)
    (hF : NearOn e ⟨2, 1, 1⟩ (IsSub probA lowA (fun _ => pinf) (fun _ => ninf) (fun _ => pinf)) t) {qd sd fuel : Nat}
    {xs ys : List (Ext K)} {st : Option (Stats (Ext K))} (h : main e qd sd (withA qd sd) fuel = .ok (some ⟨0, some (xs, ys, st)⟩)) :
    ∃ (k : Nat) (x v : Fin 2 → K) (y : Fin 5 → K), k ≤ 1000 ∧ xs = ev x ∧ ys = ev y ∧ -1 / 2 ≤ v 0 - v 1 ∧ 0 ≤ v 0 ∧ 0 ≤ v 1 ∧
      (∀ i, |x i - v i| ≤ t + k * epsK) ∧ x 0 * x 1 < 1000 * epsK ∧
      |2 * x 0 - 2 - y 2 - y 3 - y 0| < 10 ^ 6 * epsK ∧ |2 * x 1 - 2 + y 2 - y 4 - y 1| < 10 ^ 6 * epsK := by
  have hr : (lit 1 2 : Ext K) = fin (1 / 100) := by rw [lit_fin]; norm_num
  have hf : (two : Ext K) = fin 2 := by rw [two, lit_fin]; norm_num
  have hts : (withA qd sd : Task (Ext K)).opts.statTol = fin (10 ^ 6 * epsK) := by
    show (lit 1000000 0 *. eps : Ext K) = _
    simp [eps, lit_fin, epsK]
    norm_num
  have htc : (withA qd sd : Task (Ext K)).opts.complTol = fin (1000 * epsK) := by
    show (lit 1000 0 *. eps : Ext K) = _
    simp [eps, lit_fin, epsK]
  obtain ⟨o, o', off, r, b, x, y, hS, hSt, hopt, hq, hoff, hx, hy, hphi, hst, hb, rfl, rfl, _⟩ :=
    main_run (withA_ok qd sd) (withA_are qd sd) (r0 := 1 / 100) (f := 2) hr hf hr hf hts htc two_ne_zero he h
  have h2 : off = 2 := by
    have : off + 3 = 5 := hoff
    omega
  subst h2
  have hB : BoundsAre o ⟨2, 1, 1⟩ lowA (fun _ => pinf) (fun _ => ninf) (fun _ => pinf) := by
    refine ⟨?_, ?_, ?_, ?_⟩
    · rw [hSt.lbA]
      refine congrArg some ?_
      show (([-. lit 5 1] ++ [fin 0] ++ [fin 0] : List (Ext K))) = List.ofFn (lowA : Fin 3 → Ext K)
      rw [lowA_list, half_fin]
      rfl
    · rw [hSt.ubA]
      rfl
    · rw [hSt.lb]
      simp [DenseArgs.bnds, orFill, withA, base]
    · rw [hSt.ub]
      simp [DenseArgs.bnds, orFill, withA, base]
  obtain ⟨k, x1, _, h2, hx1, v, hv, hxv⟩ := C37_returned hS hB hF hq
  have e1 : x = x1 := ev_inj (Option.some.inj (hx.symm.trans hx1))
  subst e1
  obtain ⟨off, x3, y3, hb3, hx3, hy3, hst⟩ := C21_stationary hS (ts := 10 ^ 6 * epsK) (tc := 1000 * epsK) (by rw [hopt]; exact hts)
    (by rw [hopt]; exact htc) (fun _ => by
      ext i j
      fin_cases i <;> fin_cases j <;> rfl) hq (Or.inl probA_gPhi)
  have e3 : x = x3 := ev_inj (Option.some.inj (hx.symm.trans hx3))
  subst e3
  have e4 := Option.some.inj (hy.symm.trans hy3)
  have h3 : off = 2 := by
    have : 2 + 3 = off + 3 := by simpa using (congrArg List.length e4).symm
    omega
  subst h3
  have e4 := ev_inj e4
  have hv := (C77_meaningA v).1.mp hv
  rw [hopt] at h2
  have h2 : (k : Int) ≤ max 0 1000 := h2
  have r0 := hst (0 : Fin 2)
  have r1 := hst (1 : Fin 2)
  refine ⟨k, x, v, y3, by omega, rfl, ?_, hv.1, hv.2.1, hv.2.2, hxv, lt_of_eq_of_lt (C77_meaningA x).2.1.symm hphi, ?_, ?_⟩
  · have : List.drop (withA qd sd : Task (Ext K)).duals (e.alloc 1 (withA qd sd : Task (Ext K)).ny) = [] := by
      refine List.drop_of_length_le ?_
      rw [show (withA qd sd : Task (Ext K)).duals = 5 from rfl]
      simp [Env.alloc, withA]
    rw [e4, this, List.append_nil]
    rfl
  · rw [← (probA_res x y3).1]
    exact r0
  · rw [← (probA_res x y3).2]
    exact r1

/-- C77: under the assumptions of `C77_withA` with `t ≤ 10⁻⁹`, one of the two coordinates vanishes up to `10⁻⁶`, and then the other one
satisfies its constraints up to `10⁻⁵`. -/
theorem C77_withA_axis {t : K} (ht : t ≤ 1 / 10 ^ 9) (he : FinAns e)
    (hF : NearOn e ⟨2, 1, 1⟩ (IsSub probA lowA (fun _ => pinf) (fun _ => ninf) (fun _ => pinf)) t) {qd sd fuel : Nat}
    {xs ys : List (Ext K)} {st : Option (Stats (Ext K))} (h : main e qd sd (withA qd sd) fuel = .ok (some ⟨0, some (xs, ys, st)⟩)) :
    ∃ x : Fin 2 → K, xs = ev x ∧ ((|x 0| ≤ 1 / 10 ^ 6 ∧ -(1 / 10 ^ 5) ≤ x 1 ∧ x 1 ≤ 1 / 2 + 1 / 10 ^ 5) ∨ (|x 1| ≤ 1 / 10 ^ 6 ∧ -(1 / 10 ^ 5) ≤ x 0)) := by
  obtain ⟨k, x, v, y, hk, rfl, _, h1, h2, h3, hxv, hphi, _⟩ := C77_withA he hF h
  refine ⟨x, rfl, ?_⟩
  have hk : (k : K) ≤ 1000 := by exact_mod_cast hk
  have hs : t + k * epsK ≤ 2 / 10 ^ 9 := by
    have : (k : K) * epsK ≤ 1000 * epsK := mul_le_mul_of_nonneg_right hk epsK_pos.le
    have : 1000 * (epsK : K) ≤ 1 / 10 ^ 9 := by unfold epsK; norm_num
    linarith [show (2 : K) / 10 ^ 9 = 1 / 10 ^ 9 + 1 / 10 ^ 9 by norm_num]
  have x0 := abs_le.mp ((hxv 0).trans hs)
  have x1 := abs_le.mp ((hxv 1).trans hs)
  have hp : x 0 * x 1 < 1 / 10 ^ 12 := lt_of_lt_of_le hphi (by unfold epsK; norm_num)
  norm_num at x0 x1 hp ⊢
  by_cases hx : x 0 ≤ 1 / 1000000
  · left
    refine ⟨abs_le.mpr ⟨by linarith, by linarith⟩, by linarith, by linarith⟩
  · right
    refine ⟨abs_le.mpr ⟨by linarith, ?_⟩, by linarith⟩
    by_contra hc
    nlinarith

/-- C77: if warm_up_binary.cpp ends with exit code 0 and the points returned by the QP solver are within `t` of points satisfying the
linear constraints, then `xOpt` is within `t + k * EPS` of a point `v` that satisfies them, with `k ≤ 1000`, and the complementarity
violation is below `1000 * EPS`. -/
theorem C77_binary {t : K} (he : FinAns e)
    (hF : NearOn e ⟨2, 0, 2⟩ (IsSub probB lowB (fun _ => pinf) (fun _ => ninf) (fun _ => pinf)) t) {qd sd fuel : Nat}
    {xs ys : List (Ext K)} {st : Option (Stats (Ext K))} (h : main e qd sd (binary qd sd) fuel = .ok (some ⟨0, some (xs, ys, st)⟩)) :
    ∃ (k : Nat) (x v : Fin 2 → K), k ≤ 1000 ∧ xs = ev x ∧ 0 ≤ v 0 ∧ v 0 ≤ 1 / 2 ∧ 0 ≤ v 1 ∧
      (∀ i, |x i - v i| ≤ t + k * epsK) ∧ x 0 * x 1 + x 0 * (1 / 2 - x 0) < 1000 * epsK := by
  have hr : (lit 1 2 : Ext K) = fin (1 / 100) := by rw [lit_fin]; norm_num
  have hf : (two : Ext K) = fin 2 := by rw [two, lit_fin]; norm_num
  have hts : (binary qd sd : Task (Ext K)).opts.statTol = fin (10 ^ 6 * epsK) := by
    show (lit 1000000 0 *. eps : Ext K) = _
    simp [eps, lit_fin, epsK]
    norm_num
  have htc : (binary qd sd : Task (Ext K)).opts.complTol = fin (1000 * epsK) := by
    show (lit 1000 0 *. eps : Ext K) = _
    simp [eps, lit_fin, epsK]
  obtain ⟨o, o', off, r, b, x, y, hS, hSt, hopt, hq, hoff, hx, hy, hphi, hst, hb, rfl, _, _⟩ :=
    main_run (binary_ok qd sd) (binary_are qd sd) (r0 := 1 / 100) (f := 2) hr hf hr hf hts htc two_ne_zero he h
  have hB : BoundsAre o ⟨2, 0, 2⟩ lowB (fun _ => pinf) (fun _ => ninf) (fun _ => pinf) := by
    refine ⟨?_, ?_, ?_, ?_⟩
    · rw [hSt.lbA]
      refine congrArg some ?_
      show (([] ++ [ofInt 0, ofInt 0] ++ [ofInt 0, -. lit 5 1] : List (Ext K))) = List.ofFn (lowB : Fin 4 → Ext K)
      rw [lowB_list, half_fin, ofInt_fin]
      simp
    · rw [hSt.ubA]
      rfl
    · rw [hSt.lb]
      simp [DenseArgs.bnds, orFill, binary, base]
    · rw [hSt.ub]
      simp [DenseArgs.bnds, orFill, binary, base]
  obtain ⟨k, x1, _, h2, hx1, v, hv, hxv⟩ := C37_returned hS hB hF hq
  have e1 : x = x1 := ev_inj (Option.some.inj (hx.symm.trans hx1))
  subst e1
  have hv := (C77_meaningB v).1.mp hv
  rw [hopt] at h2
  have h2 : (k : Int) ≤ max 0 1000 := h2
  exact ⟨k, x, v, by omega, rfl, hv.1, hv.2.1, hv.2.2, hxv, lt_of_eq_of_lt (C77_meaningB x).2.1.symm hphi⟩

/-- points close to the feasible set with a small complementarity violation -/
theorem binary_close {t : K} (ht : t ≤ 1 / 10 ^ 9) {k : Nat} {x v : Fin 2 → K} (hk : k ≤ 1000) (h1 : 0 ≤ v 0) (h2 : v 0 ≤ 1 / 2) (h3 : 0 ≤ v 1)
    (hxv : ∀ i, |x i - v i| ≤ t + k * epsK) (hphi : x 0 * x 1 + x 0 * (1 / 2 - x 0) < 1000 * epsK) :
    -(1 / 10 ^ 8) ≤ x 1 ∧ (|x 0| ≤ 1 / 10 ^ 8 ∨ (|x 0 - 1 / 2| ≤ 1 / 10 ^ 8 ∧ |x 1| ≤ 1 / 10 ^ 8)) := by
  have hk : (k : K) ≤ 1000 := by exact_mod_cast hk
  have hs : t + k * epsK ≤ 2 / 10 ^ 9 := by
    have : (k : K) * epsK ≤ 1000 * epsK := mul_le_mul_of_nonneg_right hk epsK_pos.le
    have : 1000 * (epsK : K) ≤ 1 / 10 ^ 9 := by unfold epsK; norm_num
    linarith [show (2 : K) / 10 ^ 9 = 1 / 10 ^ 9 + 1 / 10 ^ 9 by norm_num]
  have x0 := abs_le.mp ((hxv 0).trans hs)
  have x1 := abs_le.mp ((hxv 1).trans hs)
  have hp : x 0 * x 1 + x 0 * (1 / 2 - x 0) < 1 / 10 ^ 12 := lt_of_lt_of_le hphi (by unfold epsK; norm_num)
  norm_num at x0 x1 hp ⊢
  refine ⟨by linarith, ?_⟩
  by_cases hx : x 0 ≤ 1 / 100000000
  · left
    exact abs_le.mpr ⟨by linarith, by linarith⟩
  · right
    push Not at hx
    have g0 : x 0 * (x 1 + 1 / 2 - x 0) < 1 / 1000000000000 := by linarith
    have g1 : x 1 + 1 / 2 - x 0 < 1 / 10000 := by
      by_contra hc
      push Not at hc
      nlinarith
    have g2 : 1 / 4 ≤ x 0 := by linarith
    have g3 : x 1 + 1 / 2 - x 0 < 1 / 100000000000 := by
      by_contra hc
      push Not at hc
      nlinarith
    exact ⟨abs_le.mpr ⟨by linarith, by linarith⟩, abs_le.mpr ⟨by linarith, by linarith⟩⟩

/-- C77: under the assumptions of `C77_binary` with `t ≤ 10⁻⁹`, the first coordinate is 0 or 1/2 up to `10⁻⁸`, and in the second case the
second coordinate vanishes up to `10⁻⁸`. -/
theorem C77_binary_values {t : K} (ht : t ≤ 1 / 10 ^ 9) (he : FinAns e)
    (hF : NearOn e ⟨2, 0, 2⟩ (IsSub probB lowB (fun _ => pinf) (fun _ => ninf) (fun _ => pinf)) t) {qd sd fuel : Nat}
    {xs ys : List (Ext K)} {st : Option (Stats (Ext K))} (h : main e qd sd (binary qd sd) fuel = .ok (some ⟨0, some (xs, ys, st)⟩)) :
    ∃ x : Fin 2 → K, xs = ev x ∧ -(1 / 10 ^ 8) ≤ x 1 ∧ (|x 0| ≤ 1 / 10 ^ 8 ∨ (|x 0 - 1 / 2| ≤ 1 / 10 ^ 8 ∧ |x 1| ≤ 1 / 10 ^ 8)) := by
  obtain ⟨k, x, v, hk, rfl, h1, h2, h3, hxv, hphi⟩ := C77_binary he hF h
  exact ⟨x, rfl, binary_close ht hk h1 h2 h3 hxv hphi⟩

end LCQ.WarmUp
