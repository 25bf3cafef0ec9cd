import Verif.Basic.Scalar

/-!
# NaN (specification)
-/

namespace LCQ
open Scalar

/-- The values `nan` behave like NaN: a sum, product or quotient with such an operand is such a value again, and every
comparison with one is false. -/
structure NanLike {α : Type} [Scalar α] (nan : α → Prop) : Prop where
  add_l : ∀ a b, nan a → nan (a +. b)
  add_r : ∀ a b, nan b → nan (a +. b)
  mul_l : ∀ a b, nan a → nan (a *. b)
  mul_r : ∀ a b, nan b → nan (a *. b)
  div_l : ∀ a b, nan a → nan (a /. b)
  lt_l : ∀ a b, nan a → (a <. b) = false
  lt_r : ∀ a b, nan b → (a <. b) = false

end LCQ
