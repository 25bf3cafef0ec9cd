import Verif.Model.Files
import Verif.Spec.Binary64

/-!
# Text of a data file (specification)

What the C library reads with `%lf` and `%d`: white space, numbers, everything else.  Nothing here refers to the model of the
reading functions.
-/

namespace LCQ
namespace Text

/-- white space: blank, tab, newline, vertical tab, form feed, carriage return -/
def White (c : Char) : Prop := c.toNat = 32 ∨ 9 ≤ c.toNat ∧ c.toNat ≤ 13

instance (c : Char) : Decidable (White c) := inferInstanceAs (Decidable (_ ∨ _))

/-- the longest run of digits at the beginning of `t` is `ds`, then comes `u` -/
def Digs (t ds u : List Char) : Prop :=
  t = ds ++ u ∧ (∀ c ∈ ds, c.isDigit = true) ∧ ∀ c ∈ u.head?, c.isDigit = false

/-- optional sign; `m` tells whether it is a minus -/
def Sgn (t : List Char) (m : Bool) (u : List Char) : Prop :=
  (t = '-' :: u ∧ m = true) ∨ (t = '+' :: u ∧ m = false) ∨ (t = u ∧ m = false ∧ u.head? ≠ some '-' ∧ u.head? ≠ some '+')

/-- optional point and digits after it -/
def Frac (t fs u : List Char) : Prop := (∃ v, t = '.' :: v ∧ Digs v fs u) ∨ (t = u ∧ fs = [] ∧ u.head? ≠ some '.')

/-- optional exponent, `x` is the power of ten -/
def Expo (t : List Char) (x : ℚ) (u : List Char) : Prop :=
  (∃ c v m w es, t = c :: v ∧ (c = 'e' ∨ c = 'E') ∧ Sgn v m w ∧ Digs w es u ∧ es ≠ [] ∧
      x = if m then (10 ^ Nat.ofDigitChars 10 es 0)⁻¹ else 10 ^ Nat.ofDigitChars 10 es 0) ∨
    (t = u ∧ x = 1 ∧ u.head? ≠ some 'e' ∧ u.head? ≠ some 'E')

/-- decimal number without sign; a zero followed by `x` would begin a hexadecimal number -/
def Deci (t : List Char) (x : ℚ) (u : List Char) : Prop :=
  ∃ ds v fs w p, Digs t ds v ∧ Frac v fs w ∧ (ds ≠ [] ∨ fs ≠ []) ∧
    (ds = ['0'] → v.head? ≠ some 'x' ∧ v.head? ≠ some 'X') ∧ Expo w p u ∧
    x = (Nat.ofDigitChars 10 (ds ++ fs) 0 : ℚ) / 10 ^ fs.length * p

/-- the word `w`, in lower or upper case -/
def Word (w t u : List Char) : Prop := ∃ p, t = p ++ u ∧ p.map Char.toLower = w

/-- infinity: `inf` or `infinity`; `inf` must not be followed by an `i` that begins something else -/
def Infin (t u : List Char) : Prop :=
  (Word ['i', 'n', 'f'] t u ∧ u.head?.map Char.toLower ≠ some 'i') ∨ Word ['i', 'n', 'f', 'i', 'n', 'i', 't', 'y'] t u

/-- no number, `nan` without parentheses -/
def NaN (t u : List Char) : Prop := Word ['n', 'a', 'n'] t u ∧ u.head? ≠ some '('

/-- `%lf` finds the double `v` at the beginning of `t`, and `u` is what follows: the double next to the decimal number, or
an infinity, or NaN -/
def Number (t : List Char) (v : Dbl) (u : List Char) : Prop :=
  ∃ m s, Sgn t m s ∧
    ((∃ x, Deci s x u ∧ v = Dbl.rnd (if m then -x else x)) ∨ (Infin s u ∧ v = if m then .ninf else .pinf) ∨ (NaN s u ∧ v = .nan))

/-- `%d` finds the integer `v` at the beginning of `t`, and `u` is what follows -/
def Integer (t : List Char) (v : Int) (u : List Char) : Prop :=
  ∃ m s ds, Sgn t m s ∧ Digs s ds u ∧ ds ≠ [] ∧
    v = if m then -(Nat.ofDigitChars 10 ds 0 : Int) else (Nat.ofDigitChars 10 ds 0 : Int)

/-- the text is read as the given sequence of numbers, up to the first piece that is no number; `num` relates a text to the
number at its beginning and to what follows -/
inductive Toks {β : Type} (num : List Char → β → List Char → Prop) : List Char → List (Tok β) → Prop where
  /-- nothing but white space -/
  | eof {w : List Char} : (∀ c ∈ w, White c) → Toks num w []
  /-- a number, followed by the rest -/
  | num {w t u : List Char} {c : Char} {v : β} {ts : List (Tok β)} : (∀ c ∈ w, White c) → ¬ White c → num (c :: t) v u →
      Toks num u ts → Toks num (w ++ c :: t) (.num v :: ts)
  /-- something else -/
  | bad {w t : List Char} {c : Char} : (∀ c ∈ w, White c) → ¬ White c → (∀ v u, ¬ num (c :: t) v u) →
      Toks num (w ++ c :: t) [.bad]

/-- `x` printed with six decimals and read again: the double next to the multiple of 10^-6 next to `x` -/
def back : Dbl → Dbl
  | .num q _ _ => Dbl.rnd ((Dbl.nearest (q * 1000000) : ℚ) / 1000000)
  | x => x

end Text
end LCQ
