import Verif.Model.Matlab

/-!
# The options file of the MATLAB interface

/repo/interfaces/matlab/LCQPow_options.m.  The file as shipped is no MATLAB program: a comma is missing at the end of line 8, and there is
one too many at the end of line 15.  The model is the struct which the expression describes without these two errors.
-/

namespace LCQ
open Scalar

namespace Mex
variable {α : Type} [Scalar α]

/-- MATLAB's `eps`, `2⁻⁵²` -/
def matlabEps : α := lit 2220446049250313080847263336181640625 52

/-- a number -/
def num (v : α) : Mx α := .dbl 1 1 [v]

/-- /repo/interfaces/matlab/LCQPow_options.m:5-15, with the two flags (lines 9 and 10) as parameters -/
def optionsWith (zeroFirst perturb : Mx α) : List (String × Mx α) :=
  [("stationarityTolerance", num (lit 1000 0 *. matlabEps)),
   ("complementarityTolerance", num (lit 1000000 0 *. matlabEps)),
   ("initialPenaltyParameter", num (lit 1 2)),
   ("penaltyUpdateFactor", num two),
   ("solveZeroPenaltyFirst", zeroFirst),
   ("perturbStep", perturb),
   ("maxIterations", num (ofInt 1000)),
   ("maxPenaltyParameter", num (ofInt 100000000)),
   ("printLevel", num one),
   ("nDynamicPenalty", num (ofInt 3)),
   ("etaDynamicPenalty", num (lit 9 1))]

/-- the struct of the file: the flags are numbers -/
def optionsFile : List (String × Mx α) := optionsWith (num one) (num one)

/-- the struct with logical flags -/
def optionsLogical : List (String × Mx α) := optionsWith (.logical 1 1 [true]) (.logical 1 1 [true])

end Mex
end LCQ
