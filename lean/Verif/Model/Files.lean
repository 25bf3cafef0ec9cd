import Verif.Model.Load

/-!
# Data files: /repo/src/Utilities.cpp:312-392 and /repo/src/LCQProblem.cpp:147-387

A file is what `fscanf` sees of it with the format in question: a sequence of tokens, each one either a number or something
that cannot be converted.  (Leading and trailing white space is skipped by the formats `"%lf\n"`, `"%d\n"`.)  `none` is a file
that cannot be opened.  The temporary arrays which are not released when reading fails are not modelled.
-/

namespace LCQ
open Scalar

/-- what the next conversion finds -/
inductive Tok (β : Type) where
  /-- a number -/
  | num (v : β)
  /-- input that is not a number -/
  | bad
  deriving DecidableEq

/-- a named file, `none` if it cannot be opened -/
abbrev File (β : Type) := Option (List (Tok β))

/-- `fscanf(datafile, "%lf\n", &v)`: returned value, converted number, remaining input.  At the end of the file the
returned value is `EOF = -1`; input that cannot be converted is left in the stream. -/
def fscanf {β : Type} : List (Tok β) → Int × Option β × List (Tok β)
  | [] => (-1, none, [])
  | .num v :: t => (1, some v, t)
  | .bad :: t => (0, none, .bad :: t)

/-- the assignment made by a conversion -/
def store {β : Type} (b : List β) (i : Nat) (v : Option β) : M (List β) :=
  match v with
  | none => .ok b
  | some v => wr b i v

/-- the loop `for( i=0; i<n; ++i ) if ( fscanf( ... ) == 0 ) return UNABLE_TO_READ_FILE`,
/repo/src/Utilities.cpp:325-332, 353-360; the array and whether the loop was left early -/
def readLoop {β : Type} (ts : List (Tok β)) (b : List β) (n : Nat) : M (RV × List β) := do
  let r ← loopE n (fun i (s : List (Tok β) × List β) => do
    let b ← store s.2 i (fscanf s.1).2.1
    if (fscanf s.1).1 = 0 then .ok (.inr b) else .ok (.inl ((fscanf s.1).2.2, b))) (ts, b)
  match r with
  | .inl s => .ok (.successfulReturn, s.2)
  | .inr b => .ok (.unableToReadFile, b)

/-- `readFromFile(double*, int, const char*)`, /repo/src/Utilities.cpp:341-366; `b` is the array `data` on entry -/
def readFile {β : Type} (f : File β) (b : List β) (n : Nat) : M (RV × List β) :=
  match f with
  | none => .ok (.unableToReadFile, b)
  | some ts => readLoop ts b n

/-- `readFromFile(int*, int, const char*)`, /repo/src/Utilities.cpp:312-338: calls `fclose` with a null pointer if the file
cannot be opened.  A number outside the range of `int` counts as any number. -/
def readFileInt (f : File Int) (b : List Int) (n : Nat) : M (RV × List Int) :=
  match f with
  | none => .error .null
  | some ts => readLoop ts b n

/-- `writeToFile`, /repo/src/Utilities.cpp:369-392: the numbers written; `opens` tells whether the file could be opened,
otherwise `fclose` is called with a null pointer.  Each number is written with six decimals, `fmt` is the number that is
read back. -/
def writeFile {β : Type} (fmt : β → β) (opens : Bool) (b : List β) (n : Nat) : M (RV × List (Tok β)) :=
  if opens then do
    let ts ← loop n (fun i ts => do let v ← rd b i; .ok (ts ++ [.num (fmt v)])) []
    .ok (.successfulReturn, ts)
  else .error .null

variable {α : Type} [Scalar α]

/-- The file names given to `loadLCQP`, with the files behind them. -/
structure FileArgs (α : Type) where
  /-- Q_file -/
  Q : Option (File α)
  /-- g_file -/
  g : Option (File α)
  /-- L_file -/
  L : Option (File α)
  /-- R_file -/
  R : Option (File α)
  /-- lbL_file -/
  lbL : Option (File α) := none
  /-- ubL_file -/
  ubL : Option (File α) := none
  /-- lbR_file -/
  lbR : Option (File α) := none
  /-- ubR_file -/
  ubR : Option (File α) := none
  /-- A_file -/
  A : Option (File α) := none
  /-- lbA_file -/
  lbA : Option (File α) := none
  /-- ubA_file -/
  ubA : Option (File α) := none
  /-- lb_file -/
  lb : Option (File α) := none
  /-- ub_file -/
  ub : Option (File α) := none
  /-- x0_file -/
  x0 : Option (File α) := none
  /-- y0_file -/
  y0 : Option (File α) := none

/-- `ret = readFromFile( ... ); if ( ret != SUCCESSFUL_RETURN ) return PrintMessage( ret, ERROR );` -/
def thenRead {τ : Type} (m : M (RV × τ)) (o : Obj α) (k : τ → M (RV × Obj α)) : M (RV × Obj α) := do
  let r ← m
  if r.1 ≠ .successfulReturn then failWith r.1 o else k r.2

/-- a required file into a new array; `fopen(NULL)` is undefined -/
def readReq (e : Env α) (site n : Nat) (f : Option (File α)) : M (RV × Option (List α)) := do
  let f ← deref f
  let r ← readFile f (e.alloc site n) n
  .ok (r.1, some r.2)

/-- an optional file into a new array, a null pointer without file -/
def readOpt (e : Env α) (site n : Nat) (f : Option (File α)) : M (RV × Option (List α)) :=
  match f with
  | none => .ok (.successfulReturn, none)
  | some f => do
    let r ← readFile f (e.alloc site n) n
    .ok (r.1, some r.2)

/-- the second half of the file version of `loadLCQP`, /repo/src/LCQProblem.cpp:307-386 -/
def loadRead (e : Env α) (o : Obj α) (a : DenseArgs α) : M (RV × Obj α) :=
  thenData (setQ o.d a.Q) o.s fun d =>
  thenData (setG d a.g) o.s fun d => do
  let d ← setTmp d a.lb a.ub
  thenData (setConstraints e d a.L a.R a.A a.lbA a.ubA) o.s fun d =>
    thenData (setCompBounds e d a.lbL a.ubL a.lbR a.ubR) o.s fun d =>
    thenSt (setInitialGuess e d o.s a.x0 a.y0) d fun s =>
    .ok (.successfulReturn, { d := { d with sparse := false }, s := s })

/-- `loadLCQP` from files, /repo/src/LCQProblem.cpp:147-387 -/
def loadFiles (e : Env α) (o : Obj α) (a : FileArgs α) : M (RV × Obj α) := do
  let n ← initd o.d.dims
  thenRead (readReq e 30 (n.nV * n.nV) a.Q) o fun Q =>
    thenRead (readReq e 31 n.nV a.g) o fun g =>
    thenRead (readReq e 32 (n.nComp * n.nV) a.L) o fun L =>
    thenRead (readReq e 33 (n.nComp * n.nV) a.R) o fun R =>
    thenRead (readOpt e 34 n.nComp a.lbL) o fun lbL =>
    thenRead (readOpt e 35 n.nComp a.ubL) o fun ubL =>
    thenRead (readOpt e 36 n.nComp a.lbR) o fun lbR =>
    thenRead (readOpt e 37 n.nComp a.ubR) o fun ubR =>
    thenRead (readOpt e 38 (n.nC * n.nV) a.A) o fun A =>
    thenRead (readOpt e 39 n.nC a.lbA) o fun lbA =>
    thenRead (readOpt e 40 n.nC a.ubA) o fun ubA =>
    thenRead (readOpt e 41 n.nV a.lb) o fun lb =>
    thenRead (readOpt e 42 n.nV a.ub) o fun ub =>
    thenRead (readOpt e 43 n.nV a.x0) o fun x0 =>
    thenRead (readOpt e 44 (n.nC + 2 * n.nComp) a.y0) o fun y0 =>
    loadRead e o ⟨Q, g, L, R, lbL, ubL, lbR, ubR, A, lbA, ubA, lb, ub, x0, y0⟩

end LCQ
