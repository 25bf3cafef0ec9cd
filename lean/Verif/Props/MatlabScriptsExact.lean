import Verif.Props.MatlabScripts
import Verif.Lemmas.ScriptsExact
import Verif.Props.WarmUp
import Verif.Props.Circle

/-!
# C79: the example scripts of the MATLAB interface in exact arithmetic
-/

namespace LCQ.Script
open Scalar Ext
open scoped Matrix

variable {K : Type} [Field K] [LinearOrder K] [IsStrictOrderedRing K] {E : MexEnv (Ext K)} {qd sd : Nat}

/-! ## options -/

theorem pick_rho {v : Given (Ext K)} {o : Options (Ext K)} {r : K} (h : v.rho0 = some (fin r)) (hr : 1 / 10 ^ 25 < r) :
    (v.opts o).rho0 = fin r := by
  simp only [Given.opts, h, pick]
  rw [if_pos]
  have : ((zeroTol : Ext K)) = fin (1 / 10 ^ 25) := by simp [zeroTol, LCQ.Circle.lit_fin]
  rw [this]
  simpa using hr

theorem pick_two {v : Given (Ext K)} {o : Options (Ext K)} (h : v.factor = some (ofInt 2)) : (v.opts o).factor = fin 2 := by
  have h2 : (ofInt 2 : Ext K) = fin 2 := by rw [ofInt_fin]; norm_num
  simp only [Given.opts, h, pick, h2]
  rw [if_pos]
  rw [one_fin]
  simp

theorem dflt_compl : (Options.default qd sd : Options (Ext K)).complTol = fin (1000 * epsK) := by
  show (lit 1000 0 *. eps : Ext K) = _
  simp [eps, LCQ.Circle.lit_fin, epsK]

theorem dflt_stat : (Options.default qd sd : Options (Ext K)).statTol = fin (10 ^ 6 * epsK) := by
  show (lit 1000000 0 *. eps : Ext K) = _
  simp [eps, LCQ.Circle.lit_fin, epsK]
  norm_num

theorem dflt_rho : (Options.default qd sd : Options (Ext K)).rho0 = fin (1 / 100) := by
  show (lit 1 2 : Ext K) = _
  rw [LCQ.Circle.lit_fin]
  norm_num

theorem dflt_factor : (Options.default qd sd : Options (Ext K)).factor = fin 2 := by
  show (two : Ext K) = _
  rw [two, LCQ.Circle.lit_fin]
  norm_num

/-! ## bounds -/

/-- without bounds the constraints are `Lx ≥ 0`, `Rx ≥ 0` -/
theorem free_bounds {o : Obj (Ext K)} {b : Lims K ⟨2, 0, 1⟩} (h : b = ⟨none, none, none, none, none, none, none, none⟩)
    (hb : Stored o ⟨2, 0, 1⟩ b.bnds) : BoundsAre o ⟨2, 0, 1⟩ (fun _ => fin 0) (fun _ => pinf) (fun _ => ninf) (fun _ => pinf) := by
  have hB := lims_bounds hb
  have e1 : b.bnds.rowLo ⟨2, 0, 1⟩ = fun _ => fin 0 := by
    subst h; funext i; change Fin 2 at i; fin_cases i <;> rfl
  have e2 : b.bnds.rowHi ⟨2, 0, 1⟩ = fun _ => pinf := by
    subst h; funext i; change Fin 2 at i; fin_cases i <;> rfl
  have e3 : b.bnds.boxLo ⟨2, 0, 1⟩ = fun _ => ninf := by
    subst h; funext i; change Fin 2 at i; fin_cases i <;> rfl
  have e4 : b.bnds.boxHi ⟨2, 0, 1⟩ = fun _ => pinf := by
    subst h; funext i; change Fin 2 at i; fin_cases i <;> rfl
  rwa [e1, e2, e3, e4] at hB

/-! ## warm_up.m -/

/-- C79: in exact arithmetic warm_up.m ends without an error. -/
theorem C79_warmUp_ends (hd : E.dflt = Options.default qd sd) (hT : Ints E) {s : Int} (h0 : 0 ≤ s) (h2 : s ≤ 2)
    {M : Int} (he : ∀ k r, 0 ≤ (E.e.qp k r).iter ∧ (E.e.qp k r).iter ≤ M) (hM : 1001 * M ≤ intMax) (ho : s = 2 → SetsUp E) (fuel : Nat) :
    ∃ r, warmUp E fuel s = .ok r := by
  rcases C79_warmUp E hd hT h0 h2 he hM ho fuel with ⟨_, h, _⟩ | ⟨o, q, _, _, _, _, h, h'⟩
  · exact absurd h (sym_some (warmUpSparse_ok s) (warmUpSparse_is s) (i := (0 : Fin 2)) (j := (1 : Fin 2))
      (by simp [Prob.C, WarmUp.prob, Matrix.mul_apply]))
  · cases hq : q with
    | none => exact ⟨_, h hq⟩
    | some r =>
      obtain ⟨_, _, _, _, _, _, h⟩ := h' r hq
      exact ⟨_, h⟩

/-- C79: if in exact arithmetic, with exact solutions of the subproblems, the solver reports success in warm_up.m, then the printed point is
near one of the two solutions, or near the origin and the penalty parameter is large. -/
theorem C79_warmUp_solution (hd : E.dflt = Options.default qd sd) (hT : Ints E) {s : Int} (h0 : 0 ≤ s) (h2 : s ≤ 2)
    {M : Int} (he : ∀ k r, 0 ≤ (E.e.qp k r).iter ∧ (E.e.qp k r).iter ≤ M) (hM : 1001 * M ≤ intMax) (ho : s = 2 → SetsUp E)
    (ha : FinAns E.e) (hE : ExactOn E.e ⟨2, 0, 1⟩ (IsSub (WarmUp.prob 0) (fun _ => fin 0) (fun _ => pinf) (fun _ => ninf) (fun _ => pinf)))
    {m : Dims} {p : Options (Ext K)} {o o' : Obj (Ext K)} (hl : mexLoad E (warmUpArgs s) = .ok (m, p, o)) {fuel : Nat}
    (hr : runSolver E.e fuel o = .ok (some (.successfulReturn, o'))) :
    ∃ (a b r : K) (y : Option (List (Ext K))), warmUp E fuel s = .ok (some (fin a, fin b, y)) ∧ o'.s.rho = some (fin r) ∧ r ≤ 10 ^ 8 ∧
      WarmUp.Near2 r a b := by
  have hp : readParams E ⟨2, 0, 1⟩ (.struct (warmUpFields s)) = .ok { opts := (warmUpGiven s).opts E.dflt, x0 := none, y0 := none } :=
    readParams_of (warmUpGiven_of hT h0 h2) (x := none) rfl (by rintro l ⟨⟩) rfl
  have hox : OptLen (none : Option (List (Ext K))) 2 := by rintro v ⟨⟩
  have hoy : OptLen (none : Option (List (Ext K))) 4 := by rintro v ⟨⟩
  have hrho : ((warmUpGiven s : Given (Ext K)).opts E.dflt).rho0 = fin (1 / 100) := by
    refine pick_rho (congrArg some ?_) (by norm_num)
    rw [LCQ.Circle.lit_fin]
    norm_num
  have hfac : ((warmUpGiven s : Given (Ext K)).opts E.dflt).factor = fin 2 := pick_two rfl
  obtain ⟨x0, hS, hB, hopt⟩ : ∃ x0, Setup E.e o ⟨2, 0, 1⟩ (WarmUp.prob 0) x0 (1 / 100) 2 ∧
      BoundsAre o ⟨2, 0, 1⟩ (fun _ => fin 0) (fun _ => pinf) (fun _ => ninf) (fun _ => pinf) ∧ o.d.opts = (warmUpGiven s).opts E.dflt := by
    rcases Int.lt_or_eq_of_le h0 with hs | rfl
    · rw [warmUp_sparse hs] at hl
      obtain ⟨hS, hSt, hopt⟩ := sparse_setup (c := warmUpSparse s) (by decide) (by decide) (warmUpSparse_ok s) hp (.inl ⟨rfl, rfl⟩) hox hoy ha (warmUpSparse_is s)
        hrho hfac two_ne_zero hl
      exact ⟨0, hS, free_bounds rfl hSt, hopt⟩
    · rw [warmUp_dense] at hl
      obtain ⟨hS, hSt, hopt⟩ := dense_setup (c := warmUpDense) (by decide) (by decide) hp (.inl ⟨rfl, rfl⟩) hox hoy ha warmUpDense_is
        (by ext i j; change Fin 2 at i j; fin_cases i <;> fin_cases j <;> rfl) hrho hfac two_ne_zero hl
      exact ⟨0, hS, free_bounds rfl hSt, hopt⟩
  have hG : WarmUp.Good E.e o 0 (10 ^ 8) x0 := by
    refine ⟨hS, hB, hE, ?_, ?_, ?_, ?_, ?_, by positivity, le_refl _⟩ <;> rw [hopt, hd]
    · rfl
    · show (lit 100000000 0 : Ext K) = _
      rw [LCQ.Circle.lit_fin]
      norm_num
    · refine (dflt_stat (qd := qd) (sd := sd)).trans ?_
      rw [epsK]
      norm_num
    · refine (dflt_compl (qd := qd) (sd := sd)).trans ?_
      rw [epsK]
      norm_num
    · rfl
  obtain ⟨st, ⟨s0, h0', hre⟩, hps⟩ := run_last hr
  obtain ⟨k, hk⟩ := Reach.passes hre
  obtain ⟨x, r, hx, hrr, hrR, hn⟩ := hG.near (le_refl _) (by norm_num) h0' hk hps rfl
  rcases C79_warmUp E hd hT h0 h2 he hM ho fuel with ⟨_, h, _⟩ | ⟨o1, q, hl1, hq1, _, _, _, hsome⟩
  · exact absurd h (sym_some (warmUpSparse_ok s) (warmUpSparse_is s) (i := (0 : Fin 2)) (j := (1 : Fin 2))
      (by simp [Prob.C, WarmUp.prob, Matrix.mul_apply]))
  · rw [hl] at hl1
    injection hl1 with hl1
    injection hl1 with _ hl1
    injection hl1 with _ hl1
    subst hl1
    rw [hr] at hq1
    injection hq1 with hq1
    obtain ⟨x1, x2, y, hx1, _, _, hw⟩ := hsome _ hq1.symm
    dsimp only at hx hx1 hrr
    rw [hx] at hx1
    injection hx1 with hx1
    have e : ev x = [fin (x 0), fin (x 1)] := rfl
    rw [e] at hx1
    injection hx1 with e1 hx1
    injection hx1 with e2 _
    refine ⟨x 0, x 1, r, some y, ?_, hrr, hrR, by simpa using hn⟩
    rw [hw, e1, e2]

/-! ## generalized_constraints.m and scale1.m -/

/-- the lower bounds of generalized_constraints.m: `-x0 ≥ -2`, `x1 ≥ 0` -/
def genLow (i : Fin 2) : Ext K := if i.1 = 0 then fin (-2) else fin 0

theorem gen_bounds {o : Obj (Ext K)} (hb : Stored o ⟨2, 0, 1⟩ (generalizedCall : MexCall (Ext K) _).lims.bnds) :
    BoundsAre o ⟨2, 0, 1⟩ genLow (fun _ => pinf) (fun _ => ninf) (fun _ => pinf) := by
  have hB := lims_bounds hb
  have e1 : (generalizedCall : MexCall (Ext K) _).lims.bnds.rowLo ⟨2, 0, 1⟩ = genLow := by
    funext i
    change Fin 2 at i
    fin_cases i
    · show (ofInt (-2) : Ext K) = fin (-2)
      rw [ofInt_fin]
      norm_num
    · show (ofInt 0 : Ext K) = fin 0
      rw [ofInt_fin]
      norm_num
  have e2 : (generalizedCall : MexCall (Ext K) _).lims.bnds.rowHi ⟨2, 0, 1⟩ = fun _ => pinf := by
    funext i; change Fin 2 at i; fin_cases i <;> rfl
  have e3 : (generalizedCall : MexCall (Ext K) _).lims.bnds.boxLo ⟨2, 0, 1⟩ = fun _ => ninf := by
    funext i; change Fin 2 at i; fin_cases i <;> rfl
  have e4 : (generalizedCall : MexCall (Ext K) _).lims.bnds.boxHi ⟨2, 0, 1⟩ = fun _ => pinf := by
    funext i; change Fin 2 at i; fin_cases i <;> rfl
  rwa [e1, e2, e3, e4] at hB

/-- the bounds of generalized_constraints.m are not taken for `-∞` -/
theorem gen_finite : ¬ (MinusInf (generalizedCall : MexCall (Ext K) _).lbL ∨ MinusInf (generalizedCall : MexCall (Ext K) _).lbR) := by
  rintro (⟨v, h, i, hi⟩ | ⟨v, h, i, hi⟩) <;> cases h <;> rw [ofInt_fin] at hi <;> cases hi

/-- C79: in exact arithmetic generalized_constraints.m ends without an error. -/
theorem C79_generalized_ends (hd : E.dflt = Options.default qd sd)
    {M : Int} (he : ∀ k r, 0 ≤ (E.e.qp k r).iter ∧ (E.e.qp k r).iter ≤ M) (hM : 1001 * M ≤ intMax) (fuel : Nat) :
    ∃ r, generalized E fuel = .ok r := by
  rcases C79_generalized E hd he hM fuel with ⟨h, _⟩ | ⟨o, q, _, _, _, h, h'⟩
  · exact absurd h gen_finite
  · cases hq : q with
    | none => exact ⟨_, h hq⟩
    | some r =>
      obtain ⟨_, _, _, _, _, _, _, _, h⟩ := h' r hq
      exact ⟨_, h⟩

/-- C79: let every answer of the QP solver be within `t` of a feasible point.  If `stats.exit_flag` is 0 in generalized_constraints.m, then
up to `t + k ε` the printed point satisfies `x0 ≤ 2`, `x1 ≥ 0`, and `(2 - x0) x1` is below the tolerance. -/
theorem C79_generalized_solution (hd : E.dflt = Options.default qd sd)
    {M : Int} (he : ∀ k r, 0 ≤ (E.e.qp k r).iter ∧ (E.e.qp k r).iter ≤ M) (hM : 1001 * M ≤ intMax)
    (ha : FinAns E.e) {t : K} (hF : NearOn E.e ⟨2, 0, 1⟩ (IsSub genProb genLow (fun _ => pinf) (fun _ => ninf) (fun _ => pinf)) t)
    {fuel : Nat} {x1 x2 : Ext K} {y : Option (List (Ext K))} {f : MxStruct (Ext K)}
    (h : generalized E fuel = .ok (some ((x1, x2, y), f))) (hex : f.lookup "exit_flag" = some [fin 0]) :
    ∃ (k : Nat) (a b v w : K), x1 = fin a ∧ x2 = fin b ∧ f.lookup "iters_total" = some [fin ((k : K) + 1)] ∧ k ≤ 1000 ∧ v ≤ 2 ∧ 0 ≤ w ∧
      |a - v| ≤ t + k * epsK ∧ |b - w| ≤ t + k * epsK ∧ (2 - a) * b < 1000 * epsK := by
  rcases C79_generalized E hd he hM fuel with ⟨h', _⟩ | ⟨o, q, hl, hq, _, hn, hs⟩
  · exact absurd h' gen_finite
  cases q with
  | none => rw [hn rfl] at h; cases h
  | some r =>
    obtain ⟨rv, o'⟩ := r
    obtain ⟨z1, z2, y', f', hx, _, _, hf, h'⟩ := hs _ rfl
    rw [h] at h'
    injection h' with h'
    injection h' with h'
    injection h' with h' e3
    injection h' with e1 h'
    injection h' with e2 _
    subst e1 e2 e3
    obtain rfl : rv = .successfulReturn := flag_success hf hex
    rw [generalized_call] at hl
    obtain ⟨hS, hSt, hopt⟩ := dense_setup (c := generalizedCall) (p := { opts := E.dflt, x0 := none, y0 := none }) (by decide) (by decide) rfl
      (x0 := 0) (.inl ⟨rfl, rfl⟩) (by rintro v ⟨⟩) (by rintro v ⟨⟩) ha generalized_is
      (by ext i j; change Fin 2 at i j; fin_cases i <;> fin_cases j <;> rfl) (by rw [hd]; exact dflt_rho) (by rw [hd]; exact dflt_factor)
      two_ne_zero hl
    obtain ⟨k, x, v, hxk, hk, hkm, hv, hxv, hphi, _⟩ := run_solved hS hSt
      (by ext i j; change Fin 2 at i j; fin_cases i <;> fin_cases j <;> rfl) (by rw [hopt, hd]; exact dflt_stat (qd := qd) (sd := sd))
      (by rw [hopt, hd]; exact dflt_compl (qd := qd) (sd := sd)) (gen_bounds hSt) hF hq
    dsimp only at hx hf
    rw [hxk] at hx
    injection hx with hx
    have e : ev x = [fin (x 0), fin (x 1)] := rfl
    rw [e] at hx
    injection hx with e1 hx
    injection hx with e2 _
    refine ⟨k, x 0, x 1, v 0, v 1, e1.symm, e2.symm, ?_, ?_, ?_, ?_, hxv 0, hxv 1, ?_⟩
    · rw [hf "iters_total" (by simp [statNames]) (.inl (by decide))]
      simp only [scalarOf]
      rw [hk, ofInt_fin]
      simp
    · rw [hopt, hd] at hkm
      have hkm : (k : Int) ≤ 1000 := hkm
      exact_mod_cast hkm
    · have h1 := (hv.L 0).1
      have h1 : ((ofInt (-2) : Ext K) <=. fin ((genProb.L *ᵥ v) 0)) = true := h1
      rw [ofInt_fin] at h1
      have e : ((genProb : Prob K ⟨2, 0, 1⟩).L *ᵥ v) (0 : Fin 1) = -v 0 := by
        show ∑ j : Fin 2, (!![-1, 0] : Matrix (Fin 1) (Fin 2) K) 0 j * v j = _
        rw [Fin.sum_univ_two]
        simp
      rw [e] at h1
      simp at h1
      exact h1
    · have h1 := (hv.R 0).1
      have h1 : ((ofInt 0 : Ext K) <=. fin ((genProb.R *ᵥ v) 0)) = true := h1
      rw [ofInt_fin] at h1
      have e : ((genProb : Prob K ⟨2, 0, 1⟩).R *ᵥ v) (0 : Fin 1) = v 1 := by
        show ∑ j : Fin 2, (!![0, 1] : Matrix (Fin 1) (Fin 2) K) 0 j * v j = _
        rw [Fin.sum_univ_two]
        simp
      rw [e] at h1
      simpa using h1
    · have e : (genProb : Prob K ⟨2, 0, 1⟩).phi x = (2 - x 0) * x 1 := by
        show ∑ i : Fin 1, ((∑ j : Fin 2, (!![-1, 0] : Matrix (Fin 1) (Fin 2) K) i j * x j) - (-2)) *
          ((∑ j : Fin 2, (!![0, 1] : Matrix (Fin 1) (Fin 2) K) i j * x j) - 0) = _
        simp only [Fin.sum_univ_two, Fin.sum_univ_one, Matrix.of_apply, Matrix.cons_val_zero, Matrix.cons_val_one, Matrix.cons_val_fin_one]
        ring
      rw [← e]
      exact hphi

omit [LinearOrder K] [IsStrictOrderedRing K] in
theorem scale_res (x : Fin 2 → K) (y : Fin 4 → K) :
    (scaleProb : Prob K ⟨2, 0, 1⟩).residual (off := 2) x y (0 : Fin 2) = 20000 * x 0 - 200 - y 2 - y 0 ∧
    (scaleProb : Prob K ⟨2, 0, 1⟩).residual (off := 2) x y (1 : Fin 2) = 2 * x 1 - 2 - y 3 - y 1 := by
  have key : ∀ j : Fin 2, (scaleProb : Prob K ⟨2, 0, 1⟩).residual (off := 2) x y j =
      (∑ i : Fin 2, (!![20000, 0; 0, 2] : Matrix (Fin 2) (Fin 2) K) j i * x i + (![-200, -2] : Fin 2 → K) j) - 0 -
      ∑ i : Fin 1, (!![1, 0] : Matrix (Fin 1) (Fin 2) K) i j * y 2 - ∑ i : Fin 1, (!![0, 1] : Matrix (Fin 1) (Fin 2) K) i j * y 3 -
      ![y 0, y 1] j := by
    intro j
    have hA : ((scaleProb : Prob K ⟨2, 0, 1⟩).Aᵀ *ᵥ yA (n := ⟨2, 0, 1⟩) (yLin (off := 2) y)) j = 0 :=
      Fin.sum_univ_zero fun i => (scaleProb : Prob K ⟨2, 0, 1⟩).Aᵀ j i * yA (n := ⟨2, 0, 1⟩) (yLin (off := 2) y) i
    rw [← hA]
    fin_cases j <;> rfl
  rw [key, key]
  simp [Fin.sum_univ_two]
  constructor <;> ring

/-- C79: let every answer of the QP solver be within `t` of a feasible point.  If `stats.exit_flag` is 0 in scale1.m, then up to `t + k ε`
the returned point satisfies `x0 ≥ 0`, `x1 ≥ 0`; `x0 x1` is below the tolerance; and `x`, `y` satisfy the stationarity condition up to the
tolerance. -/
theorem C79_scale_solution (hd : E.dflt = Options.default qd sd) (hT : Ints E)
    {M : Int} (he : ∀ k r, 0 ≤ (E.e.qp k r).iter ∧ (E.e.qp k r).iter ≤ M) (hM : 1001 * M ≤ intMax)
    (ha : FinAns E.e) {t : K} (hF : NearOn E.e ⟨2, 0, 1⟩ (IsSub scaleProb (fun _ => fin 0) (fun _ => pinf) (fun _ => ninf) (fun _ => pinf)) t)
    {fuel : Nat} {out : MexOut (Ext K)} (h : scale E fuel = .ok (some out)) {f : MxStruct (Ext K)} (hst : out.stats = some f)
    (hex : f.lookup "exit_flag" = some [fin 0]) :
    ∃ (k : Nat) (a b v w y0 y1 y2 y3 : K), out.x = [fin a, fin b] ∧ out.y = some [fin y0, fin y1, fin y2, fin y3] ∧
      f.lookup "iters_total" = some [fin ((k : K) + 1)] ∧ k ≤ 1000 ∧ 0 ≤ v ∧ 0 ≤ w ∧ |a - v| ≤ t + k * epsK ∧ |b - w| ≤ t + k * epsK ∧
      a * b < 1000 * epsK ∧ |20000 * a - 200 - y2 - y0| < 10 ^ 6 * epsK ∧ |2 * b - 2 - y3 - y1| < 10 ^ 6 * epsK := by
  obtain ⟨o, q, hl, hq, _, hn, hs⟩ := C79_scale E hd hT he hM fuel
  cases q with
  | none => rw [hn rfl] at h; cases h
  | some r =>
    obtain ⟨rv, o'⟩ := r
    obtain ⟨z, y', f', hx, hy, _, ly, hf, h'⟩ := hs _ rfl
    rw [h] at h'
    injection h' with h'
    injection h' with h'
    subst h'
    injection hst with hst
    subst hst
    obtain rfl : rv = .successfulReturn := flag_success hf hex
    rw [scale_call] at hl
    have hp : readParams E ⟨2, 0, 1⟩ (.struct scaleFields) =
        .ok { opts := (scaleGiven).opts E.dflt, x0 := some [ofInt 1, ofInt 1], y0 := none } :=
      readParams_of (scaleGiven_of hT) (x := some [ofInt 1, ofInt 1]) rfl (by rintro l ⟨⟩ h; cases h) rfl
    have hx0 : ArgOpt (some [ofInt 1, ofInt 1] : Option (List (Ext K))) 2 (vec 2 [1, 1]) := by
      refine .inr ⟨[1, 1], ?_, by simp, rfl⟩
      simp [emb]
    have hrho : ((scaleGiven : Given (Ext K)).opts E.dflt).rho0 = fin 10 := by
      refine pick_rho (congrArg some ?_) (by norm_num)
      rw [ofInt_fin]
      norm_num
    obtain ⟨hS, hSt, hopt⟩ := dense_setup (c := scaleCall) (by decide) (by decide) hp
      hx0 (by rintro v ⟨⟩; exact le_refl 2) (by rintro v ⟨⟩) ha scale_is
      (by ext i j; change Fin 2 at i j; fin_cases i <;> fin_cases j <;> rfl) hrho (pick_two rfl) two_ne_zero hl
    obtain ⟨k, x, v, hxk, hk, hkm, hv, hxv, hphi, hstat⟩ := run_solved hS hSt
      (by ext i j; change Fin 2 at i j; fin_cases i <;> fin_cases j <;> rfl) (by rw [hopt, hd]; exact dflt_stat (qd := qd) (sd := sd))
      (by rw [hopt, hd]; exact dflt_compl (qd := qd) (sd := sd)) (free_bounds rfl hSt) hF hq
    obtain ⟨off, y, hyk, hres⟩ := hstat (by
      show -(_ *ᵥ 0 + _ *ᵥ 0) = 0
      simp)
    dsimp only at hx hy hf
    rw [hxk] at hx
    injection hx with hx
    rw [hyk] at hy
    injection hy with hy
    subst hx hy
    have hoff : off = 2 := by
      rw [ev_length] at ly
      have : off + 2 = 4 := ly
      omega
    subst hoff
    change Fin 4 → K at y
    have r0 := hres (0 : Fin 2)
    have r1 := hres (1 : Fin 2)
    refine ⟨k, x 0, x 1, v 0, v 1, y 0, y 1, y 2, y 3, rfl, rfl, ?_, ?_, ?_, ?_, hxv 0, hxv 1, ?_, ?_, ?_⟩
    · rw [hf "iters_total" (by simp [statNames]) (.inl (by decide))]
      simp only [scalarOf]
      rw [hk, ofInt_fin]
      simp
    · rw [hopt, hd] at hkm
      have hkm : (k : Int) ≤ 1000 := hkm
      exact_mod_cast hkm
    · have h1 := (hv.L 0).1
      have h1 : ((fin 0 : Ext K) <=. fin ((scaleProb.L *ᵥ v) 0)) = true := h1
      have e : ((scaleProb : Prob K ⟨2, 0, 1⟩).L *ᵥ v) (0 : Fin 1) = v 0 := by
        show ∑ j : Fin 2, (!![1, 0] : Matrix (Fin 1) (Fin 2) K) 0 j * v j = _
        rw [Fin.sum_univ_two]
        simp
      rw [e] at h1
      simpa using h1
    · have h1 := (hv.R 0).1
      have h1 : ((fin 0 : Ext K) <=. fin ((scaleProb.R *ᵥ v) 0)) = true := h1
      have e : ((scaleProb : Prob K ⟨2, 0, 1⟩).R *ᵥ v) (0 : Fin 1) = v 1 := by
        show ∑ j : Fin 2, (!![0, 1] : Matrix (Fin 1) (Fin 2) K) 0 j * v j = _
        rw [Fin.sum_univ_two]
        simp
      rw [e] at h1
      simpa using h1
    · have e : (scaleProb : Prob K ⟨2, 0, 1⟩).phi x = x 0 * x 1 := by
        show ∑ i : Fin 1, ((∑ j : Fin 2, (!![1, 0] : Matrix (Fin 1) (Fin 2) K) i j * x j) - 0) *
          ((∑ j : Fin 2, (!![0, 1] : Matrix (Fin 1) (Fin 2) K) i j * x j) - 0) = _
        simp [Fin.sum_univ_two]
      rw [← e]
      exact hphi
    · rw [(scale_res x y).1] at r0
      exact r0
    · rw [(scale_res x y).2] at r1
      exact r1

end LCQ.Script
