import Verif.Spec.Reference
import Mathlib.Data.Matrix.Mul

/-!
# Change of variables and of units (specification)

New variables `y` with `x = T y`, an objective multiplied by `c` and a complementarity function multiplied by `w`.
-/

namespace LCQ.Ref
open scoped Matrix

/-- a change of variables and units: `x = T y`, `y = U x`, the objective is multiplied by `c`, the complementarity function
by `w`, and the largest entry of a gradient by `c s` -/
structure Units (K : Type) (m : Nat) where
  /-- old variables from new ones -/
  T : Matrix (Fin m) (Fin m) K
  /-- new variables from old ones -/
  U : Matrix (Fin m) (Fin m) K
  /-- factor of the objective -/
  c : K
  /-- factor of the complementarity function -/
  w : K
  /-- factor of the variables -/
  s : K

variable {K : Type} [Field K] [LinearOrder K] {m : Nat}

/-- the change can be undone and keeps the largest entry of all gradients, up to the factor `s` -/
structure Units.Fit (z : Units K m) : Prop where
  TU : z.T * z.U = 1
  UT : z.U * z.T = 1
  c : 0 < z.c
  w : 0 < z.w
  s : 0 < z.s
  norm : ∀ (v : Fin m → K) (b : K), (∀ i, |(z.Tᵀ *ᵥ v) i| < z.s * b) ↔ ∀ i, |v i| < b

/-- the problem in the new variables and units -/
def Units.pb (z : Units K m) (A : Pb K m) : Pb K m where
  Q := z.c • (z.Tᵀ * A.Q * z.T)
  g := z.c • (z.Tᵀ *ᵥ A.g)
  C := z.w • (z.Tᵀ * A.C * z.T)
  h := z.w • (z.Tᵀ *ᵥ A.h)
  phi y := z.w * A.phi (z.T *ᵥ y)
  X y := A.X (z.T *ᵥ y)

/-- the options in the new units: only the tolerances and the limit of the penalty parameter depend on them -/
def Units.par (z : Units K m) (o : Par K) : Par K :=
  { o with
    statTol := z.c * (z.s * o.statTol)
    complTol := z.w * o.complTol
    maxRho := z.c / z.w * o.maxRho }

/-- a state in the new variables and units -/
def Units.st (z : Units K m) (t : St K m) : St K m :=
  { t with
    x := z.U *ᵥ t.x
    p := z.U *ᵥ t.p
    r := z.c / z.w * t.r
    c := z.c • (z.Tᵀ *ᵥ t.c)
    hist := t.hist.map (z.w * ·) }

/-- the random perturbations of the iterates, which do not depend on the units, are switched off, or the variables stay
the same -/
def Units.Plain (z : Units K m) (o : Par K) : Prop := o.perturb = false ∨ z.U = 1

end LCQ.Ref
