import Verif.Model.MatlabDefaults
import Verif.Spec.Binary64
import Verif.Props.MatlabLoad
import Verif.Props.IndependentEx

/-!
# C87: documented tolerances and default options
-/

set_option linter.unusedSectionVars false

namespace LCQ
open Scalar Ext
open scoped Matrix

namespace Mex
variable {α : Type} [Scalar α] {n : Dims}

/-- C87 (any arithmetic, a defect): a call that passes the struct of the options file (even after its syntax errors are removed) is
refused, whatever the problem: the flag `solveZeroPenaltyFirst` is a number and not a logical. -/
theorem C87_file (E : MexEnv α) (prhs : List (Mx α)) (hlen : ¬ (prhs.length < 8 ∨ 14 < prhs.length)) (hd : mexDims prhs = .ok n)
    (hc : mexChecks prhs n = .ok ()) {i : Nat} (hi : paramsIdx prhs = some i) (hq : prhs[i]? = some (.struct optionsFile)) :
    mexLoad E prhs = .error (.type "solveZeroPenaltyFirst") := by
  have hP : mexParams E n prhs = .error (.type "solveZeroPenaltyFirst") := by
    simp only [mexParams, hi, arg, rd, hq]
    rfl
  rw [mexLoad, if_neg hlen, hd, mx_ok_bind, hc, mx_ok_bind, hP]
  rfl

/-- the integers in the options file -/
def fileInts : List Int := [1000, 100000000, 3, 1]

/-- C87 (any arithmetic): with logical flags the struct of the options file sets stationarity tolerance, complementarity tolerance
and print level to other values than the library's defaults, and nothing else. -/
theorem C87_logical (E : MexEnv α) (k : Nat) (m : Nat) (h3 : (two <=. (one : α)) = false)
    (h1 : ((lit 1000 0 *. matlabEps : α) <=. eps) = false) (h2 : ((lit 1000000 0 *. matlabEps : α) <=. eps) = false)
    (h4 : ((lit 1 2 : α) <=. zeroTol) = false) (h5 : ((lit 9 1 : α) <=. eps) = false) (h6 : ((one : α) <=. lit 9 1) = false)
    (h7 : ((ofInt 100000000 : α) <=. zero) = false) (hi : ∀ z ∈ fileInts, E.toInt (ofInt z) = .ok z) :
    optFields E (.struct optionsLogical) (Options.default k m) =
      .ok { Options.default k m with
        statTol := lit 1000 0 *. matlabEps
        complTol := lit 1000000 0 *. matlabEps
        printLevel := 1 } := by
  have hof : Given.Of E optionsLogical (α := α)
      { statTol := some (lit 1000 0 *. matlabEps)
        complTol := some (lit 1000000 0 *. matlabEps)
        rho0 := some (lit 1 2)
        factor := some two
        zeroFirst := some true
        perturb := some true
        maxIter := some 1000
        maxRho := some 100000000
        printLevel := some 1
        nDyn := some 3
        eta := some (lit 9 1) } :=
    ⟨rfl, rfl, rfl, rfl, rfl, ⟨_, rfl, hi _ (by decide)⟩, ⟨_, rfl, hi _ (by decide)⟩, ⟨_, rfl, hi _ (by decide)⟩, rfl,
      ⟨_, rfl, hi 1 (by decide)⟩, rfl, rfl, rfl, rfl, rfl⟩
  rw [C52_options E _ _ hof]
  simp [Given.opts, pick, h1, h2, h3, h4, h5, h6, h7, Options.default, ofInt]

/-- C87 (double precision): the same for `double`; the stationarity tolerance is smaller and the complementarity tolerance is greater than
the library's default. -/
theorem C87_double (E : MexEnv Dbl) (k m : Nat) (hi : ∀ z ∈ fileInts, E.toInt (ofInt z) = .ok z) :
    ∃ o : Options Dbl, optFields E (.struct optionsLogical) (Options.default k m) = .ok o ∧
      (o.statTol <. (Options.default k m : Options Dbl).statTol) = true ∧
      ((Options.default k m : Options Dbl).complTol <. o.complTol) = true ∧ (o.statTol <. o.complTol) = true ∧
      o = { Options.default k m with statTol := o.statTol, complTol := o.complTol, printLevel := 1 } := by
  refine ⟨_, C87_logical E k m (by decide +kernel) (by decide +kernel) (by decide +kernel) (by decide +kernel) (by decide +kernel)
    (by decide +kernel) (by decide +kernel) hi, ?_, ?_, ?_, rfl⟩
  · change ((lit 1000 0 *. matlabEps : Dbl) <. lit 1000000 0 *. eps) = true; decide +kernel
  · change ((lit 1000 0 *. eps : Dbl) <. lit 1000000 0 *. matlabEps) = true; decide +kernel
  · change ((lit 1000 0 *. matlabEps : Dbl) <. lit 1000000 0 *. matlabEps) = true; decide +kernel

/-- C87 (double precision): the tolerances of the options file are `1000 · 2⁻⁵²` and `10⁶ · 2⁻⁵²`, without rounding. -/
theorem C87_values : (matlabEps : Dbl).val = some (1 / 2 ^ 52) ∧ (lit 1000 0 *. matlabEps : Dbl).val = some (1000 / 2 ^ 52) ∧
    (lit 1000000 0 *. matlabEps : Dbl).val = some (1000000 / 2 ^ 52) :=
  ⟨by decide +kernel, by decide +kernel, by decide +kernel⟩

/-- a conversion to `int` as assumed in `C87_double` -/
example : ∃ f : Dbl → M Int, ∀ z ∈ fileInts, f (ofInt z) = .ok z :=
  ⟨fun v => .ok (if v <=. one then 1 else if v <=. ofInt 3 then 3 else if v <=. ofInt 1000 then 1000 else 100000000),
    by decide +kernel⟩

/-- a call of `C87_file` -/
example : ∃ prhs : List (Mx (Ext ℚ)), ¬ (prhs.length < 8 ∨ 14 < prhs.length) ∧ mexDims prhs = .ok ⟨2, 0, 1⟩ ∧
    mexChecks prhs ⟨2, 0, 1⟩ = .ok () ∧ paramsIdx prhs = some 8 ∧ prhs[8]? = some (.struct optionsFile) :=
  ⟨[.dbl 2 2 [one, zero, zero, one], .dbl 2 1 [one, one], .dbl 1 2 [one, zero], .dbl 1 2 [zero, one], .dbl 1 1 [zero], .dbl 1 1 [one],
    .dbl 1 1 [zero], .dbl 1 1 [one], .struct optionsFile], by decide, rfl, rfl, rfl, rfl⟩

end Mex

section
variable {K : Type} [Field K] [LinearOrder K] [IsStrictOrderedRing K] {n : Dims} {P : Prob K n} {e : Env (Ext K)} {o : Obj (Ext K)}
  {x0 : Fin n.nV → K} {r0 f : K}

/-- C87: the sum of the absolute values of the stationarity violations at the end of a successful run is at most the number of
variables times the stationarity tolerance (for zero lower bounds of the sides or without penalty update). -/
theorem C87_bound (hS : Setup e o n P x0 r0 f) {ts tc : K} (hts : o.d.opts.statTol = fin ts) (htc : o.d.opts.complTol = fin tc)
    (hQ : o.d.sparse = true → P.Qᵀ = P.Q) {fuel : Nat} {o' : Obj (Ext K)}
    (h : runSolver e fuel o = .ok (some (.successfulReturn, o'))) (hc : P.gPhi = 0 ∨ o'.s.outer = some 0) :
    ∃ (off : Nat) (x : Fin n.nV → K) (y : Fin (off + n.nA) → K), o'.d.boxOff = some off ∧ o'.s.xk = some (ev x) ∧
      o'.s.yk = some (ev y) ∧ l1 (P.residual x y) ≤ n.nV * ts := by
  obtain ⟨off, x, y, h1, h2, h3, h4⟩ := C21_stationary hS hts htc hQ h hc
  refine ⟨off, x, y, h1, h2, h3, ?_⟩
  refine (Finset.sum_le_sum fun i _ => (h4 i).le).trans ?_
  rw [Finset.sum_const, Finset.card_univ, Fintype.card_fin, nsmul_eq_mul]

end

namespace Ex

/-- `args5L` with another initial guess -/
def argsN := argsOf [2, 0, 0, 2] [-4, -2] [0] [0] none none (some (emb [797 / 400, 3 / 800]))

/-- stationarity tolerance 1/100 -/
def optsN : Options (Ext ℚ) := { opts with
  rho0 := fin 2
  statTol := fin (1 / 100)
  zeroFirst := false }

theorem lookN : look (go (solver ans4) optsN argsN 20) = some ⟨.successfulReturn, some 2, some 0, some (fin 2),
    some (emb [1597 / 800, 0]), some (emb [0, 397 / 200]), some (emb [0, 0, 0, -803 / 400])⟩ := by decide +kernel

theorem loadN : (loadDense (solver ans4) (Obj.new optsN 2 0 1) argsN).map (·.1) = .ok .successfulReturn := by rfl

end Ex

/-- C87 (a deviation from the documentation): the stationarity tolerance is no tolerance for the sum of the absolute values of the
stationarity violations: a run with an exact QP solver is successful although this sum is 3/2 times the tolerance for the returned
point and multipliers. -/
theorem C87_norm : ∃ (P : Prob ℚ ⟨2, 0, 1⟩) (b : Bnds (Ext ℚ)) (e : Env (Ext ℚ)) (o o1 o2 : Obj (Ext ℚ)) (x0 x : Fin 2 → ℚ)
    (y : Fin 4 → ℚ) (ts : ℚ), Fresh o ⟨2, 0, 1⟩ ∧ Loads e o o1 ⟨2, 0, 1⟩ P x0 b ∧ SolvesExactly e ⟨2, 0, 1⟩ P b ∧
    runSolver e 20 o1 = .ok (some (.successfulReturn, o2)) ∧ o.d.opts.statTol = fin ts ∧ o2.s.xk = some (ev x) ∧ o2.s.yk = some (ev y) ∧
    0 < ts ∧ ∑ i : Fin 2, |P.residual (off := 2) x y i| = 3 / 2 * ts := by
  have hx : ArgOpt (some (emb [797 / 400, 3 / 800])) 2 (![797 / 400, 3 / 800] : Fin 2 → ℚ) :=
    Or.inr ⟨[797 / 400, 3 / 800], rfl, by decide, by decide +kernel⟩
  have hare : Ex.argsN.Are Ex.dim Ex.prob5L ![797 / 400, 3 / 800] :=
    Ex.argsOf_are rfl rfl rfl rfl (by rintro v ⟨⟩) (by rintro v ⟨⟩) hx
  obtain ⟨o1, hl, _⟩ := Ex.setup_of hare (Ex.solver_fin Ex.ans4) (op := Ex.optsN) (r0 := 2) (f := 2) rfl (by decide +kernel)
    (by decide) Ex.loadN
  obtain ⟨o2, h1, _, _, _, h5, _, h7⟩ := Ex.look_inv hl Ex.lookN
  refine ⟨Ex.prob5L, Ex.argsN.bnds, Ex.solver Ex.ans4, _, o1, o2, _, ![1597 / 800, 0], ![0, 0, 0, -803 / 400], 1 / 100,
    fresh_new _ (by decide) (by decide), Or.inl ⟨_, hare, rfl, hl⟩, Ex.exact5L, h1, rfl, h5.trans (by rfl), h7.trans (by rfl),
    by norm_num, ?_⟩
  rw [Fin.sum_univ_two]
  decide +kernel

/-- the assumptions of `C87_bound` hold for this run -/
example : ∃ (o : Obj (Ext ℚ)) (o' : Obj (Ext ℚ)), Setup (Ex.solver Ex.ans4) o Ex.dim Ex.prob5L ![797 / 400, 3 / 800] 2 2 ∧
    o.d.opts.statTol = fin (1 / 100) ∧ o.d.sparse = false ∧ runSolver (Ex.solver Ex.ans4) 20 o = .ok (some (.successfulReturn, o')) ∧
    o'.s.outer = some 0 := by
  have hx : ArgOpt (some (emb [797 / 400, 3 / 800])) 2 (![797 / 400, 3 / 800] : Fin 2 → ℚ) :=
    Or.inr ⟨[797 / 400, 3 / 800], rfl, by decide, by decide +kernel⟩
  obtain ⟨o, hl, hS, hsp, ho, _⟩ := Ex.setup_of (Ex.argsOf_are (Q := [2, 0, 0, 2]) (g := [-4, -2]) (lbL := [0])
    (lbR := [0]) (lb := none) (ub := none) rfl rfl rfl rfl (by rintro v ⟨⟩) (by rintro v ⟨⟩) hx) (Ex.solver_fin Ex.ans4)
    (op := Ex.optsN) (r0 := 2) (f := 2) rfl (by decide +kernel) (by decide) Ex.loadN
  obtain ⟨o', h1, _, h3, _⟩ := Ex.look_inv hl Ex.lookN
  exact ⟨o, o', hS, by rw [ho]; rfl, hsp, h1, h3⟩

end LCQ
