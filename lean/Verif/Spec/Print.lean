import Verif.Spec.Rows
import Verif.Spec.Text

/-!
# Layout of the console output (specification)
-/

namespace LCQ
namespace Text

/-- widths of the columns of the iteration table -/
def widths (level : Int) : List Nat := if 2 ≤ level then [6, 6, 10, 10, 10, 10, 10, 6] else [6, 10, 10, 10, 10]

/-- width of the lines of the iteration table -/
def lineWidth (level : Int) : Nat := if 2 ≤ level then 90 else 59

/-- cells next to each other -/
def joined (sep : List Char) (cells : List (List Char)) : List Char := sep.intercalate cells

/-- `t` consists of lines of width `w` -/
def Lines (w : Nat) (t : List Char) : Prop := ∃ ls : List (List Char), t = ls.flatMap (· ++ ['\n']) ∧ ∀ l ∈ ls, l.length = w ∧ '\n' ∉ l

/-- decimal number with at most three significant digits -/
def Short (v : ℚ) : Prop := ∃ j l : Int, |j| < 1000 ∧ v = j * 10 ^ l

/-- value printed with `k` decimals -/
def roundTo (k : Nat) (q : ℚ) : ℚ := (Dbl.nearest (q * 10 ^ k) : ℚ) / 10 ^ k

end Text
end LCQ
