import Verif.Model.Files
import Verif.Spec.Binary64

/-!
# Data files as text: /repo/src/Utilities.cpp:312-392

The conversions of `fscanf` and `fprintf` (C library) for the formats used: `"%lf\n"`, `"%d\n"` and `"%f\n"`.
Numbers are `double`s.  Hexadecimal numbers and `nan(...)` count as input that cannot be converted; the sign of `NaN` and of
zero is lost.
-/

namespace LCQ
namespace Text

/-- `isspace` in the C locale -/
def space (c : Char) : Bool := c ∈ [' ', '\t', '\n', '\x0b', '\x0c', '\r']

/-- white space in a format skips white space of the input -/
def skip (cs : List Char) : List Char := cs.dropWhile space

/-- optional sign; `true` for minus -/
def sign : List Char → Bool × List Char
  | '-' :: cs => (true, cs)
  | '+' :: cs => (false, cs)
  | cs => (false, cs)

/-- leading digits and the rest -/
def digits (cs : List Char) : List Char × List Char := (cs.takeWhile Char.isDigit, cs.dropWhile Char.isDigit)

/-- number with the given decimal digits -/
def ofDigits (ds : List Char) : Nat := Nat.ofDigitChars 10 ds 0

/-- fractional part: the digits after a point -/
def fraction : List Char → List Char × List Char
  | '.' :: cs => digits cs
  | cs => ([], cs)

/-- power of ten -/
def pow10 (neg : Bool) (k : Nat) : ℚ := if neg then 1 / 10 ^ k else 10 ^ k

/-- exponent part, if there is one; an `e` without digits makes the conversion fail -/
def exponent : List Char → Option (ℚ × List Char)
  | c :: cs =>
    if c = 'e' ∨ c = 'E' then
      if (digits (sign cs).2).1 = [] then none
      else some (pow10 (sign cs).1 (ofDigits (digits (sign cs).2).1), (digits (sign cs).2).2)
    else some (1, c :: cs)
  | [] => some (1, [])

/-- decimal number without sign -/
def decimal (cs : List Char) : Option (ℚ × List Char) :=
  let a := digits cs
  let b := fraction a.2
  if a.1 = [] ∧ b.1 = [] then none
  else if a.1 = ['0'] ∧ (a.2.head? = some 'x' ∨ a.2.head? = some 'X') then none
  else (exponent b.2).map fun x => ((ofDigits (a.1 ++ b.1) : ℚ) / 10 ^ b.1.length * x.1, x.2)

/-- the first characters are `w`, in lower or upper case; the rest -/
def word (w cs : List Char) : Option (List Char) :=
  if (cs.take w.length).map Char.toLower = w then some (cs.drop w.length) else none

/-- infinity and NaN without sign -/
def special (cs : List Char) : Option (Dbl × List Char) :=
  match word ['i', 'n', 'f'] cs with
  | some r =>
    if (r.head?.map Char.toLower) = some 'i' then (word ['i', 'n', 'i', 't', 'y'] r).map fun r => (.pinf, r)
    else some (.pinf, r)
  | none =>
    match word ['n', 'a', 'n'] cs with
    | some r => if r.head? = some '(' then none else some (.nan, r)
    | none => none

/-- the number found by `%lf` after white space and what follows it -/
def float (cs : List Char) : Option (Dbl × List Char) :=
  let s := sign cs
  match special s.2 with
  | some v => some (if s.1 then v.1.neg else v.1, v.2)
  | none => (decimal s.2).map fun v => (Dbl.rnd (if s.1 then -v.1 else v.1), v.2)

/-- the number found by `%d` -/
def int (cs : List Char) : Option (Int × List Char) :=
  let s := sign cs
  let d := digits s.2
  if d.1 = [] then none else some (if s.1 then -(ofDigits d.1 : Int) else ofDigits d.1, d.2)

/-- `fscanf(datafile, "%lf\n", &v)` and `fscanf(datafile, "%d\n", &v)`: returned value, converted number, remaining input -/
def scanf {β : Type} (num : List Char → Option (β × List Char)) (cs : List Char) : Int × Option β × List Char :=
  match skip cs with
  | [] => (-1, none, [])
  | c :: cs =>
    match num (c :: cs) with
    | none => (0, none, c :: cs)
    | some v => (1, some v.1, skip v.2)

/-- the reading loop on the text of the file, /repo/src/Utilities.cpp:325-332, 353-360 -/
def readLoop {β : Type} (num : List Char → Option (β × List Char)) (t : List Char) (b : List β) (n : Nat) : M (RV × List β) := do
  let r ← loopE n (fun i (s : List Char × List β) => do
    let b ← store s.2 i (scanf num s.1).2.1
    if (scanf num s.1).1 = 0 then .ok (.inr b) else .ok (.inl ((scanf num s.1).2.2, b))) (t, b)
  match r with
  | .inl s => .ok (.successfulReturn, s.2)
  | .inr b => .ok (.unableToReadFile, b)

/-- `readFromFile(double*, int, const char*)`, /repo/src/Utilities.cpp:341-366; `none` is a file that cannot be opened -/
def readFile (f : Option (List Char)) (b : List Dbl) (n : Nat) : M (RV × List Dbl) :=
  match f with
  | none => .ok (.unableToReadFile, b)
  | some t => readLoop float t b n

/-- `readFromFile(int*, int, const char*)`, /repo/src/Utilities.cpp:312-338 -/
def readFileInt (f : Option (List Char)) (b : List Int) (n : Nat) : M (RV × List Int) :=
  match f with
  | none => .error .null
  | some t => readLoop int t b n

/-- decimal digits of a number, `%d` without sign -/
def nat (n : Nat) : List Char := Nat.toDigits 10 n

/-- `q` in units of the sixth decimal, as printed: the next integer, ties to even -/
def micro (q : ℚ) : Int := Dbl.nearest (q * 1000000)

/-- six digits -/
def six (n : Nat) : List Char := List.replicate (6 - (nat n).length) '0' ++ nat n

/-- `%f` -/
def fixed : Dbl → List Char
  | .num q _ _ => (if q < 0 then ['-'] else []) ++ nat ((micro q).natAbs / 1000000) ++ ['.'] ++ six ((micro q).natAbs % 1000000)
  | .pinf => ['i', 'n', 'f']
  | .ninf => ['-', 'i', 'n', 'f']
  | .nan => ['n', 'a', 'n']

/-- `writeToFile`, /repo/src/Utilities.cpp:369-392: the text written -/
def writeFile (opens : Bool) (b : List Dbl) (n : Nat) : M (RV × List Char) :=
  if opens then do
    let t ← loop n (fun i t => do let v ← rd b i; .ok (t ++ (fixed v ++ ['\n']))) []
    .ok (.successfulReturn, t)
  else .error .null

end Text
end LCQ
