import Mathlib.Algebra.Order.Field.Basic

/-!
# Arithmetic

The C++ sources compute with `double`.  `Scalar α` lists the operations which the
sources use, without any law.  Theorems about an arbitrary `Scalar α` hold for IEEE
doubles with all their special values and rounding.

`Ext K` is the exact arithmetic of a linearly ordered field `K`, extended by
`+INFINITY`, `-INFINITY` and `NaN` with IEEE propagation rules.  Only rounding
and signed zeros are abstracted away.
-/

namespace LCQ

/-- Operations on `double` used in /repo/src (no laws are assumed). -/
class Scalar (α : Type) where
  /-- `a + b` -/
  add : α → α → α
  /-- `a - b` -/
  sub : α → α → α
  /-- `a * b` -/
  mul : α → α → α
  /-- `a / b` -/
  div : α → α → α
  /-- `-a` -/
  neg : α → α
  /-- `fabs(a)` -/
  abs : α → α
  /-- `a < b` -/
  lt : α → α → Bool
  /-- `a <= b` -/
  le : α → α → Bool
  /-- `lit m e` is the constant `m * 10^(-e)`; `lit m 0` is also the conversion of an `int`. -/
  lit : Int → Nat → α
  /-- `INFINITY` of `<math.h>` -/
  inf : α

@[inherit_doc] infixl:65 " +. " => Scalar.add
@[inherit_doc] infixl:65 " -. " => Scalar.sub
@[inherit_doc] infixl:70 " *. " => Scalar.mul
@[inherit_doc] infixl:70 " /. " => Scalar.div
@[inherit_doc] infix:50 " <. " => Scalar.lt
@[inherit_doc] infix:50 " <=. " => Scalar.le
@[inherit_doc] prefix:75 "-. " => Scalar.neg

namespace Scalar
variable {α : Type} [Scalar α]

/-- The constant `0`. -/
def zero : α := lit 0 0
/-- The constant `1`. -/
def one : α := lit 1 0
/-- The constant `2.0`. -/
def two : α := lit 2 0
/-- `Utilities::EPS = 2.221e-16` (/repo/include/Utilities.hpp:350). -/
def eps : α := lit 2221 19
/-- `Utilities::ZERO = 1.0e-25` (/repo/include/Utilities.hpp:357). -/
def zeroTol : α := lit 1 25
/-- conversion `int -> double` -/
def ofInt (z : Int) : α := lit z 0

/-- `std::min(a, b)`: returns `b` if `b < a`, else `a`. -/
def stdMin (a b : α) : α := if b <. a then b else a

end Scalar

/-- Exact numbers of `K` with infinities and NaN. -/
inductive Ext (K : Type) where
  | fin (v : K)
  | pinf
  | ninf
  | nan
  deriving DecidableEq, Repr

namespace Ext
variable {K : Type}

section
variable [Field K] [LinearOrder K]

/-- infinity with the sign of `v` (`v ≠ 0`), `NaN` for `v = 0`. -/
def signInf (v : K) : Ext K := if 0 < v then pinf else if v < 0 then ninf else nan

/-- IEEE negation. -/
def neg : Ext K → Ext K
  | fin a => fin (-a)
  | pinf => ninf
  | ninf => pinf
  | nan => nan

/-- IEEE addition without rounding. -/
def add : Ext K → Ext K → Ext K
  | fin a, fin b => fin (a + b)
  | nan, _ => nan
  | _, nan => nan
  | pinf, ninf => nan
  | ninf, pinf => nan
  | pinf, _ => pinf
  | _, pinf => pinf
  | ninf, _ => ninf
  | _, ninf => ninf

/-- IEEE subtraction without rounding. -/
def sub (a b : Ext K) : Ext K := add a (neg b)

/-- IEEE multiplication without rounding. -/
def mul : Ext K → Ext K → Ext K
  | fin a, fin b => fin (a * b)
  | nan, _ => nan
  | _, nan => nan
  | pinf, fin b => signInf b
  | ninf, fin b => signInf (-b)
  | fin a, pinf => signInf a
  | fin a, ninf => signInf (-a)
  | pinf, pinf => pinf
  | ninf, ninf => pinf
  | pinf, ninf => ninf
  | ninf, pinf => ninf

/-- IEEE division without rounding (a zero divisor counts as `+0`). -/
def div : Ext K → Ext K → Ext K
  | fin a, fin b => if b = 0 then signInf a else fin (a / b)
  | nan, _ => nan
  | _, nan => nan
  | fin _, pinf => fin 0
  | fin _, ninf => fin 0
  | pinf, fin b => if b < 0 then ninf else pinf
  | ninf, fin b => if b < 0 then pinf else ninf
  | _, _ => nan

/-- `fabs` -/
def abs : Ext K → Ext K
  | fin a => fin (if 0 ≤ a then a else -a)
  | pinf => pinf
  | ninf => pinf
  | nan => nan

/-- IEEE `<` (false if an operand is NaN). -/
def lt : Ext K → Ext K → Bool
  | fin a, fin b => decide (a < b)
  | nan, _ => false
  | _, nan => false
  | pinf, _ => false
  | _, ninf => false
  | ninf, _ => true
  | fin _, pinf => true

/-- IEEE `<=` (false if an operand is NaN). -/
def le : Ext K → Ext K → Bool
  | fin a, fin b => decide (a ≤ b)
  | nan, _ => false
  | _, nan => false
  | ninf, _ => true
  | _, pinf => true
  | pinf, _ => false
  | fin _, ninf => false

instance : Scalar (Ext K) where
  add := add
  sub := sub
  mul := mul
  div := div
  neg := neg
  abs := abs
  lt := lt
  le := le
  lit m e := fin ((m : K) / (10 : K) ^ e)
  inf := pinf

end
end Ext

/-- IEEE binary64 of the Lean runtime is an instance, so theorems about arbitrary
`Scalar α` apply to it. -/
instance : Scalar Float where
  add := (· + ·)
  sub := (· - ·)
  mul := (· * ·)
  div := (· / ·)
  neg := (- ·)
  abs := Float.abs
  lt a b := decide (a < b)
  le a b := decide (a ≤ b)
  lit m e := (if m < 0 then -1 else 1) * OfScientific.ofScientific m.natAbs true e
  inf := 1.0 / 0.0

end LCQ
