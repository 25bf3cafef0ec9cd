import Verif.Model.Text
import Verif.Model.Object
import Mathlib.Data.Int.Log

/-!
# The console output as text: /repo/src/LCQProblem.cpp:1528-1637 and /repo/src/Utilities.cpp:398-466

The conversions `%d`, `%6d`, `%10.3g` and `%.5f`, `%.2f` of `printf` (C library).  Numbers are `double`s.  The sign of zero and of
`NaN` is lost.
-/

namespace LCQ
namespace Text

/-- field of width `w`: blanks on the left -/
def pad (w : Nat) (s : List Char) : List Char := List.replicate (w - s.length) ' ' ++ s

/-- `%d` -/
def dec (z : Int) : List Char := (if z < 0 then ['-'] else []) ++ nat z.natAbs

/-- three significant digits of a number other than zero: the digits as a number from 100 to 999, and the decimal exponent of
the first digit -/
def sig (q : ℚ) : Nat × Int :=
  let x := Int.log 10 |q|
  let m := (Dbl.nearest (|q| / 10 ^ (x - 2))).natAbs
  if m = 1000 then (100, x + 1) else (m, x)

/-- without zeros at the end -/
def strip (s : List Char) : List Char := (s.reverse.dropWhile (· = '0')).reverse

/-- digits after the point; no point if all of them are zero -/
def frac (s : List Char) : List Char := if strip s = [] then [] else '.' :: strip s

/-- exponent with at least two digits -/
def expo (x : Int) : List Char :=
  ['e', if x < 0 then '-' else '+'] ++ List.replicate (2 - (nat x.natAbs).length) '0' ++ nat x.natAbs

/-- `%.3g` for the digits `ds` and the exponent `x` -/
def style (ds : List Char) (x : Int) : List Char :=
  if -4 ≤ x ∧ x < 3 then
    if 0 ≤ x then ds.take (x.toNat + 1) ++ frac (ds.drop (x.toNat + 1))
    else '0' :: frac (List.replicate ((-x).toNat - 1) '0' ++ ds)
  else ds.take 1 ++ frac (ds.drop 1) ++ expo x

/-- `%.3g` -/
def general : Dbl → List Char
  | .num q _ _ => if q = 0 then ['0'] else (if q < 0 then ['-'] else []) ++ style (nat (sig q).1) (sig q).2
  | .pinf => ['i', 'n', 'f']
  | .ninf => ['-', 'i', 'n', 'f']
  | .nan => ['n', 'a', 'n']

/-- `printLine`, /repo/src/LCQProblem.cpp:1615-1637 -/
def line (level : Int) : List Char :=
  let iSep := "------".toList
  let dSep := "----------".toList
  let node := "-+-".toList
  iSep ++ (if 2 ≤ level then node ++ iSep else []) ++ (node ++ dSep) ++ (node ++ dSep) ++ (node ++ dSep) ++ (node ++ dSep) ++
    (if 2 ≤ level then node ++ dSep ++ node ++ iSep else []) ++ "-\n".toList

/-- `printHeader`, /repo/src/LCQProblem.cpp:1582-1610 -/
def header (level : Int) : List Char :=
  let sep := " | ".toList
  line level ++ (" outer".toList ++ (if 2 ≤ level then sep ++ " inner".toList else []) ++ (sep ++ "  station ".toList) ++
    (sep ++ "  complem ".toList) ++ (sep ++ "    rho   ".toList) ++ (sep ++ "  norm p  ".toList) ++
    (if 2 ≤ level then sep ++ "   alpha  ".toList ++ sep ++ "sub it".toList else []) ++ " \n".toList) ++ line level

/-- the line printed by `printIteration`, /repo/src/LCQProblem.cpp:1543-1578; `more` is given for levels from 2 on -/
def row (level outer inner : Int) (stat phi rho np : Dbl) (more : Option (Dbl × Int)) : List Char :=
  let sep := " | ".toList
  pad 6 (dec outer) ++ (if 2 ≤ level then sep ++ pad 6 (dec inner) else []) ++ (sep ++ pad 10 (general stat)) ++
    (sep ++ pad 10 (general phi)) ++ (sep ++ pad 10 (general rho)) ++ (sep ++ pad 10 (general np)) ++
    (match more with
      | some (alpha, sub) => sep ++ pad 10 (general alpha) ++ (sep ++ pad 6 (dec sub))
      | none => []) ++ " \n".toList

/-- text of one event; messages of a run are of type `ERROR` -/
def render (level : Int) : Ev Dbl → List Char
  | .newline => ['\n']
  | .header => header level
  | .iter outer inner stat phi rho np more => row level outer inner stat phi rho np more
  | .solution t => (printSolution t).2.toList
  | .msg r => (printMessage r .error).2.toList

/-- text on the console -/
def console (level : Int) (l : List (Ev Dbl)) : List Char := l.flatMap (render level)

/-! ## printing of arrays -/

/-- `%.kf` -/
def places (k : Nat) : Dbl → List Char
  | .num q _ _ =>
    let a := (Dbl.nearest (q * 10 ^ k)).natAbs
    let f := nat (a % 10 ^ k)
    (if q < 0 then ['-'] else []) ++ nat (a / 10 ^ k) ++ ['.'] ++ (List.replicate (k - f.length) '0' ++ f)
  | .pinf => ['i', 'n', 'f']
  | .ninf => ['-', 'i', 'n', 'f']
  | .nan => ['n', 'a', 'n']

/-- `for (int i = 0; i < n; i++) printf(...)` -/
def prints (n : Nat) (f : Nat → M (List Char)) : M (List Char) := loop n (fun i t => do let v ← f i; .ok (t ++ v)) []

/-- `printMatrix(const double* const, ...)`, /repo/src/Utilities.cpp:398-411 -/
def printMatrix (a : Option (List Dbl)) (m n : Nat) (name : List Char) : M (List Char) := do
  let t ← prints m (fun i => do
    let r ← prints n (fun j => do
      let a ← deref a
      let v ← rd a (i * n + j)
      .ok (places 5 v ++ [' ']))
    .ok (r ++ ['\n']))
  .ok ("Printing matrix ".toList ++ name ++ ":\n".toList ++ t ++ ['\n'])

/-- `printMatrix(const int* const, ...)`, /repo/src/Utilities.cpp:414-428 -/
def printMatrixInt (a : Option (List Int)) (m n : Nat) (name : List Char) : M (List Char) := do
  let t ← prints m (fun i => do
    let r ← prints n (fun j => do
      let a ← deref a
      let v ← rd a (i * n + j)
      .ok (dec v ++ [' ']))
    .ok (r ++ ['\n']))
  .ok ("Printing matrix ".toList ++ name ++ ":\n".toList ++ t ++ ['\n'])

/-- `printMatrix(const csc*, ...)`, /repo/src/Utilities.cpp:431-444 -/
def printMatrixCsc (S : Option (CSC Dbl)) (name : List Char) : M (List Char) := do
  let S ← deref S
  if S.m * S.n ≤ 0 then .ok []
  else do
    let d ← cscToDns S
    printMatrix d S.m S.n name

/-- `printStep`, /repo/src/Utilities.cpp:447-455 -/
def printStep (xk pk xn : Option (List Dbl)) (alpha : Dbl) (nV : Nat) : M (List Char) := do
  let t ← prints nV (fun i => do
    let xk ← deref xk
    let x ← rd xk i
    let pk ← deref pk
    let p ← rd pk i
    let xn ← deref xn
    let y ← rd xn i
    .ok (places 2 x ++ " + ".toList ++ places 2 alpha ++ " * ".toList ++ places 2 p ++ " = ".toList ++ places 2 y ++ " \n".toList))
  .ok ("Printing Step:\n".toList ++ t ++ ['\n'])

/-- `printBounds`, /repo/src/Utilities.cpp:458-466 -/
def printBounds (lb xk ub : Option (List Dbl)) (m : Nat) : M (List Char) := do
  let t ← prints m (fun i => do
    let lb ← deref lb
    let l ← rd lb i
    let xk ← deref xk
    let x ← rd xk i
    let ub ← deref ub
    let u ← rd ub i
    .ok (places 2 l ++ " <= ".toList ++ places 2 x ++ " <= ".toList ++ places 2 u ++ " \n".toList))
  .ok ("Printing box constraints:\n".toList ++ t ++ ['\n'])

end Text
end LCQ
