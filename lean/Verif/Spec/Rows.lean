import Verif.Spec.Reach

/-!
# Records of the iterations (specification)
-/

namespace LCQ
open Scalar

variable {α : Type} [Scalar α]

/-- what is recorded about one iteration -/
structure Rec (α : Type) where
  /-- number of the outer iteration -/
  outer : Int
  /-- number of the inner iteration -/
  inner : Int
  /-- iterate -/
  x : List α
  /-- largest absolute entry of the stationarity vector -/
  stat : α
  /-- complementarity violation -/
  phi : α
  /-- penalty parameter -/
  rho : α
  /-- largest absolute entry of the step -/
  size : α
  /-- step length -/
  len : α
  /-- iterations of the QP solver -/
  sub : Int
  /-- objective value -/
  obj : α
  /-- merit value -/
  merit : α

/-- the statistics object holds exactly the records `R` -/
structure Stats.Table (s : Stats α) (R : List (Rec α)) : Prop where
  x : s.xSteps = R.map Rec.x
  inner : s.innerIters = R.map Rec.inner
  sub : s.subIters = R.map Rec.sub
  len : s.stepLength = R.map Rec.len
  size : s.stepSize = R.map Rec.size
  stat : s.statVals = R.map Rec.stat
  obj : s.objVals = R.map Rec.obj
  phi : s.phiVals = R.map Rec.phi
  merit : s.meritVals = R.map Rec.merit

/-- the printed lines belonging to the iteration table -/
def tableLines : List (Ev α) → List (Ev α)
  | [] => []
  | .header :: l => .header :: tableLines l
  | .iter a b c d e f g :: l => .iter a b c d e f g :: tableLines l
  | _ :: l => tableLines l

/-- the line printed for a record: step length and QP iterations appear from level 2 on -/
def Rec.line (level : Int) (r : Rec α) : Ev α :=
  .iter r.outer r.inner r.stat r.phi r.rho r.size (if 2 ≤ level then some (r.len, r.sub) else none)

/-- what is printed for a record: with level 1 the first iteration of every outer iteration, with a header at every
tenth outer iteration; with level 2 every iteration, with a header at every tenth inner iteration -/
def Rec.shown (level : Int) (r : Rec α) : List (Ev α) :=
  if level = 0 then []
  else if level = 1 then
    if 0 < r.inner then [] else (if (10 : Int) ∣ r.outer then [Ev.header] else []) ++ [r.line level]
  else (if 2 ≤ level ∧ (10 : Int) ∣ r.inner then [Ev.header] else []) ++ [r.line level]

/-- `b` can follow `a`: next inner iteration, or first iteration of a later outer iteration -/
def Rec.Next (a b : Rec α) : Prop :=
  (b.outer = a.outer ∧ b.inner = a.inner + 1) ∨ (a.outer < b.outer ∧ b.inner = 0)

end LCQ
