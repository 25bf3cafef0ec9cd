import Verif.Model.Utilities

/-!
# The remaining scalar helpers of `Utilities`
-/

namespace LCQ
open Scalar

variable {α : Type} [Scalar α]

/-- `Utilities::isEqual(x, y, TOL)`, /repo/src/Utilities.cpp:662-668. -/
def isEqualTol (x y tol : α) : Bool := if getAbs (x -. y) <=. tol then true else false

/-- `Utilities::isZero(x, TOL)`, /repo/src/Utilities.cpp:678-684. -/
def isZeroTol (x tol : α) : Bool := if getAbs x <=. tol then true else false

/-- `Utilities::getSign`, /repo/src/Utilities.cpp:693-699. -/
def getSign (x : α) : α := if zero <=. x then one else -. one

/-- `Utilities::getMax(int, int)`, /repo/src/Utilities.cpp:702-705. -/
def getMaxInt (x y : Int) : Int := if y < x then x else y

/-- `Utilities::getMin(int, int)`, /repo/src/Utilities.cpp:708-711. -/
def getMinInt (x y : Int) : Int := if y > x then x else y

end LCQ
