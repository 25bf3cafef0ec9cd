import Mathlib.Tactic.IntervalCases
import Verif.Lemmas.ScriptsCircle
import Verif.Spec.CircleProb
import Verif.Props.MatlabCall

/-!
# The calls of LCQPow in the example scripts are documented calls
-/

namespace LCQ.Script
open Scalar
open scoped Matrix

variable {α : Type} [Scalar α]

/-- the contents of a parameter struct with or without `x0` and without `y0` -/
theorem readParams_of {E : MexEnv α} {n : Dims} {fs : List (String × Mx α)} {v : Given α} (h : v.Of E fs) {x : Option (List α)}
    (hx : fs.lookup "x0" = x.map fun l => .dbl n.nV 1 l) (hx0 : ∀ l, x = some l → l ≠ []) (hy : fs.lookup "y0" = none) :
    readParams E n (.struct fs) = .ok { opts := v.opts E.dflt, x0 := x, y0 := none } := by
  have hy' : (Mx.struct fs).field "y0" = none := hy
  have hx' : (Mx.struct fs).field "x0" = x.map fun l => .dbl n.nV 1 l := hx
  have hg : guessField (.struct fs) n.nV = .ok x := by
    rw [guessField, hx']
    cases x with
    | none => rfl
    | some l =>
      have hl := hx0 l rfl
      have hp : (Mx.dbl n.nV 1 l).pr = .ok (some l) := by simp [Mx.pr, hl]
      simp only [Option.map_some, hp, lift_ok]
      rw [checkDouble, Bool.false_and, if_neg (by simp), if_neg (by simp [Mx.isDouble]), if_neg (by simp [Mx.rows, Mx.cols])]
      rfl
  rw [readParams, hg, mx_ok_bind, C52_options E fs v h E.dflt, mx_ok_bind, dualField, hy', mx_ok_bind]

/-- the integers 0, 1, 2 are converted to themselves -/
def Ints (E : MexEnv α) : Prop := ∀ k : Int, 0 ≤ k → k ≤ 2 → E.toInt (ofInt k) = .ok k

/-! ## the small scripts -/

/-- `[a b; c d]` -/
def sq (a b c d : α) (i j : Nat) : α := if i = 0 then (if j = 0 then a else b) else (if j = 0 then c else d)

theorem rows22 (a b c d : α) : Has 2 2 (sq a b c d) (ofRows [[a, b], [c, d]]) := by
  refine ⟨rfl, rfl, rfl, fun j hj i hi => ?_⟩
  interval_cases j <;> interval_cases i <;> rfl

theorem rows12 (a b : α) : Has 1 2 (sq a b a b) (ofRows [[a, b]]) := by
  refine ⟨rfl, rfl, rfl, fun j hj i hi => ?_⟩
  interval_cases j <;> interval_cases i <;> rfl

theorem rows21 (a b : α) : Has 2 1 (sq a a b b) (ofRows [[a], [b]]) := by
  refine ⟨rfl, rfl, rfl, fun j hj i hi => ?_⟩
  interval_cases j; interval_cases i <;> rfl

/-- the parameter struct of warm_up.m -/
def warmUpFields (s : Int) : List (String × Mx α) :=
  [("initialPenaltyParameter", num (lit 1 2)), ("penaltyUpdateFactor", num (ofInt 2)), ("qpSolver", num (ofInt s))]

/-- the call of warm_up.m with full matrices -/
def warmUpDense : MexCall α ⟨2, 0, 1⟩ where
  Q := Matrix.of fun i j => sq (ofInt 2) (ofInt 0) (ofInt 0) (ofInt 2) i j
  g := fun i => sq (ofInt (-2)) (ofInt (-2)) (ofInt (-2)) (ofInt (-2)) i 0
  L := Matrix.of fun i j => sq (ofInt 1) (ofInt 0) (ofInt 1) (ofInt 0) i j
  R := Matrix.of fun i j => sq (ofInt 0) (ofInt 1) (ofInt 0) (ofInt 1) i j
  params := some (warmUpFields 0)

/-- the call of warm_up.m with sparse matrices -/
def warmUpSparse (s : Int) : SpCall α ⟨2, 0, 1⟩ where
  Q := (ofRows [[ofInt 2, ofInt 0], [ofInt 0, ofInt 2]]).sparse
  g := fun i => sq (ofInt (-2)) (ofInt (-2)) (ofInt (-2)) (ofInt (-2)) i 0
  L := (ofRows [[ofInt 1, ofInt 0]]).sparse
  R := (ofRows [[ofInt 0, ofInt 1]]).sparse
  params := some (warmUpFields s)

theorem warmUp_fields (s : Int) : setField "qpSolver" (num (ofInt s)) (setField "penaltyUpdateFactor" (num (ofInt 2))
    (setField "initialPenaltyParameter" (num (lit 1 2)) [])) = (warmUpFields s : List (String × Mx α)) := by
  rfl

theorem warmUp_dense : warmUpArgs 0 = (warmUpDense : MexCall α _).prhs := by
  have h1 := (rows22 (ofInt 2 : α) (ofInt 0) (ofInt 0) (ofInt 2)).full
  have h2 := (rows21 (ofInt (-2) : α) (ofInt (-2))).column
  have h3 := (rows12 (ofInt 1 : α) (ofInt 0)).full
  have h4 := (rows12 (ofInt 0 : α) (ofInt 1)).full
  simp only [warmUpArgs, warmUp_fields, Arr.arg, h1, h2, h3, h4]
  rfl

theorem warmUp_sparse {s : Int} (hs : 0 < s) : warmUpArgs s = (warmUpSparse s : SpCall α _).prhs := by
  have h2 := (rows21 (ofInt (-2) : α) (ofInt (-2))).column
  simp only [warmUpArgs, warmUp_fields, Arr.arg, h2, gt_iff_lt, hs, decide_true, if_true]
  rfl

theorem warmUpSparse_ok (s : Int) : (warmUpSparse s : SpCall α _).OK where
  Q := (rows22 _ _ _ _).valid
  L := (rows12 _ _).valid
  R := (rows12 _ _).valid
  A := by rintro l ⟨⟩
  lin := ⟨fun _ => rfl, fun _ => rfl⟩

/-- the contents of the parameter struct of warm_up.m -/
def warmUpGiven (s : Int) : Given α := { rho0 := some (lit 1 2), factor := some (ofInt 2), qpSolver := some s }

theorem warmUpGiven_of {E : MexEnv α} (hT : Ints E) {s : Int} (h0 : 0 ≤ s) (h2 : s ≤ 2) : (warmUpGiven s).Of E (warmUpFields s) := by
  constructor
  case qpSolver => exact ⟨_, rfl, hT s h0 h2⟩
  all_goals rfl

/-- the call of generalized_constraints.m -/
def generalizedCall : MexCall α ⟨2, 0, 1⟩ where
  Q := Matrix.of fun i j => sq (ofInt 2) (ofInt 0) (ofInt 0) (ofInt 2) i j
  g := fun i => sq (ofInt (-2)) (ofInt (-2)) (ofInt (-2)) (ofInt (-2)) i 0
  L := Matrix.of fun i j => sq (ofInt (-1)) (ofInt 0) (ofInt (-1)) (ofInt 0) i j
  R := Matrix.of fun i j => sq (ofInt 0) (ofInt 1) (ofInt 0) (ofInt 1) i j
  lbL := some fun _ => ofInt (-2)
  ubL := some fun _ => inf
  lbR := some fun _ => ofInt 0
  ubR := some fun _ => inf

theorem generalized_call : generalizedArgs = (generalizedCall : MexCall α _).prhs := by
  have h1 := (rows22 (ofInt 2 : α) (ofInt 0) (ofInt 0) (ofInt 2)).full
  have h2 := (rows21 (ofInt (-2) : α) (ofInt (-2))).column
  have h3 := (rows12 (ofInt (-1) : α) (ofInt 0)).full
  have h4 := (rows12 (ofInt 0 : α) (ofInt 1)).full
  simp only [generalizedArgs, h1, h2, h3, h4]
  rfl

/-- the parameter struct of scale1.m -/
def scaleFields : List (String × Mx α) :=
  [("x0", .dbl 2 1 [ofInt 1, ofInt 1]), ("initialPenaltyParameter", num (ofInt 10)), ("penaltyUpdateFactor", num (ofInt 2)),
    ("solveZeroPenaltyFirst", yes), ("printLevel", num (ofInt 2))]

/-- the call of scale1.m -/
def scaleCall : MexCall α ⟨2, 0, 1⟩ where
  Q := Matrix.of fun i j => sq (ofInt 2 *. (ofInt 100 *. ofInt 100)) (ofInt 0) (ofInt 0) (ofInt 2) i j
  g := fun i => sq (ofInt (-200)) (ofInt (-200)) (ofInt (-2)) (ofInt (-2)) i 0
  L := Matrix.of fun i j => sq (ofInt 1) (ofInt 0) (ofInt 1) (ofInt 0) i j
  R := Matrix.of fun i j => sq (ofInt 0) (ofInt 1) (ofInt 0) (ofInt 1) i j
  params := some scaleFields

theorem scale_call : scaleArgs = (scaleCall : MexCall α _).prhs := by
  have h1 := (rows22 (ofInt 2 *. (ofInt 100 *. ofInt 100) : α) (ofInt 0) (ofInt 0) (ofInt 2)).full
  have h2 := (rows21 (ofInt (-200) : α) (ofInt (-2))).column
  have h3 := (rows12 (ofInt 1 : α) (ofInt 0)).full
  have h4 := (rows12 (ofInt 0 : α) (ofInt 1)).full
  have h5 : setField "printLevel" (num (ofInt 2)) (setField "solveZeroPenaltyFirst" yes (setField "penaltyUpdateFactor" (num (ofInt 2))
      (setField "initialPenaltyParameter" (num (ofInt 10)) (setField "x0" (ofRows [[ofInt 1], [ofInt 1]]).mx [])))) =
      (scaleFields : List (String × Mx α)) := by
    rfl
  simp only [scaleArgs, h1, h2, h3, h4, h5]
  rfl

/-- the contents of the parameter struct of scale1.m -/
def scaleGiven : Given α := { rho0 := some (ofInt 10), factor := some (ofInt 2), zeroFirst := some true, printLevel := some 2 }

theorem scaleGiven_of {E : MexEnv α} (hT : Ints E) : (scaleGiven : Given α).Of E scaleFields := by
  constructor
  case printLevel => exact ⟨_, rfl, hT 2 (by decide) (by decide)⟩
  all_goals rfl

/-! ## the scripts with the circle -/

/-- the calls of the scripts with full matrices -/
def circleDense (N : Nat) (dir : Nat → α × α) (fs : List (String × Mx α)) : MexCall α (LCQ.Circle.dims N) where
  Q := Matrix.of fun i j => hess i j
  g := fun i => lin i
  L := Matrix.of fun i j => LCQ.Circle.left i j
  R := Matrix.of fun i j => LCQ.Circle.right i j
  lin := some (Matrix.of fun i j => LCQ.Circle.cons N (fun i => dir (i + 1)) i j, some fun _ => one, some fun _ => one)
  params := some fs

/-- the calls of the scripts with sparse matrices -/
def circleSparse (N : Nat) (c : Circle α) (fs : List (String × Mx α)) : SpCall α (LCQ.Circle.dims N) where
  Q := c.Q.sparse
  g := fun i => lin i
  L := c.L.sparse
  R := c.R.sparse
  lin := some (c.A.sparse, some fun _ => one, some fun _ => one)
  params := some fs

variable {N : Nat} {dir : Nat → α × α} {c : Circle α}

theorem Circle.Are.dense (h : c.Are N dir) (fs : List (String × Mx α)) : c.args false fs = (circleDense N dir fs).prhs := by
  simp only [Circle.args, Arr.arg, Bool.false_eq_true, if_false, h.Q.full, h.g.column, h.L.full, h.R.full, h.A.full, h.lbA.column, h.ubA.column]
  rfl

theorem Circle.Are.sparse (h : c.Are N dir) (fs : List (String × Mx α)) : c.args true fs = (circleSparse N c fs).prhs := by
  simp only [Circle.args, Arr.arg, if_true, h.g.column, h.lbA.column, h.ubA.column]
  rfl

theorem Circle.Are.ok (h : c.Are N dir) (fs : List (String × Mx α)) : (circleSparse N c fs).OK where
  Q := h.Q.valid
  L := h.L.valid
  R := h.R.valid
  A := by rintro l ⟨⟩; exact h.A.valid
  lin := ⟨fun h => (nomatch h), fun h => (nomatch h)⟩

theorem Circle.Are.guess (h : c.Are N dir) : c.x0.mx = .dbl (LCQ.Circle.dims N).nV 1 c.x0.data ∧ c.x0.data ≠ [] := by
  refine ⟨?_, fun h0 => ?_⟩
  · rw [Arr.mx, h.x0.rows, h.x0.cols]
  · have := h.x0.len
    rw [h0] at this
    simp only [List.length_nil] at this
    omega

/-- the contents of the parameter struct of solvers_test.m -/
def testGiven (s : Int) : Given α := { statTol := some (lit 1 3), printLevel := some 2, qpSolver := some s }

theorem testGiven_of {E : MexEnv α} (hT : Ints E) {s : Int} (h0 : 0 ≤ s) (h2 : s ≤ 2) (c : Circle α) :
    (testGiven s).Of E (testParams c s) ∧ (testParams c s).lookup "x0" = some c.x0.mx ∧ (testParams c s).lookup "y0" = none := by
  have e : testParams c s = [("printLevel", num (ofInt 2)), ("stationarityTolerance", num (lit 1 3)), ("x0", c.x0.mx),
      ("qpSolver", num (ofInt s))] := by
    rfl
  rw [e]
  refine ⟨?_, rfl, rfl⟩
  constructor
  case qpSolver => exact ⟨_, rfl, hT s h0 h2⟩
  case printLevel => exact ⟨_, rfl, hT 2 (by decide) (by decide)⟩
  all_goals rfl

theorem test_params {E : MexEnv α} (hT : Ints E) {s : Int} (h0 : 0 ≤ s) (h2 : s ≤ 2) (h : c.Are N dir) :
    readParams E (LCQ.Circle.dims N) (.struct (testParams c s)) = .ok { opts := (testGiven s).opts E.dflt, x0 := some c.x0.data, y0 := none } := by
  obtain ⟨g1, g2, g3⟩ := testGiven_of hT h0 h2 c
  refine readParams_of g1 (by rw [g2, h.guess.1]; rfl) ?_ g3
  rintro l ⟨⟩
  exact h.guess.2

/-- the contents of the parameter struct of optimize_on_circle.m -/
def circleGiven (rho : α) : Given α :=
  { rho0 := some rho, factor := some (ofInt 2), zeroFirst := some true, printLevel := some 0, qpSolver := some 1 }

theorem circle_params {E : MexEnv α} (hT : Ints E) (rho : α) (h : c.Are N dir) :
    readParams E (LCQ.Circle.dims N) (.struct (circleParams c rho)) = .ok { opts := (circleGiven rho).opts E.dflt, x0 := some c.x0.data, y0 := none } := by
  have e : circleParams c rho = [("x0", c.x0.mx), ("penaltyUpdateFactor", num (ofInt 2)), ("solveZeroPenaltyFirst", yes),
      ("printLevel", num (ofInt 0)), ("qpSolver", num (ofInt 1)), ("initialPenaltyParameter", num rho)] := by
    rfl
  rw [e]
  refine readParams_of ?_ (by show some c.x0.mx = _; rw [h.guess.1]; rfl) ?_ rfl
  · constructor
    case qpSolver => exact ⟨_, rfl, hT 1 (by decide) (by decide)⟩
    case printLevel => exact ⟨_, rfl, hT 0 (by decide) (by decide)⟩
    all_goals rfl
  · rintro l ⟨⟩
    exact h.guess.2

end LCQ.Script
