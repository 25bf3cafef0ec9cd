import Verif.Spec.Lcqp
import Verif.Basic.Scalar

/-!
# Strong stationarity (specification)
-/

namespace LCQ
open Ext
open scoped Matrix

variable {K : Type} [Field K] [LinearOrder K] {n : Dims}

/-- Strong (S-) stationarity of `x` with multipliers `z` of the constraints and `w` of the bounds: the gradient of the objective is
a combination of gradients of active constraints; multipliers of linear constraints and bounds have the sign of their side;
those of a side of a complementarity pair vanish if this side is not at its lower bound, may have any sign if only this side
is at its lower bound, and are not negative if both sides are.  Both sides have no upper bounds here. -/
structure Prob.Strong (P : Prob K n) (lA uA : Fin n.nA → Ext K) (l u : Fin n.nV → Ext K) (x : Fin n.nV → K)
    (z : Fin n.nA → K) (w : Fin n.nV → K) : Prop where
  stat : P.gradObj x = P.Aᵀ *ᵥ yA z + P.Lᵀ *ᵥ yL z + P.Rᵀ *ᵥ yR z + w
  apos : ∀ i : Fin n.nC, 0 < yA z i → ∀ h, lA ⟨i, h⟩ = fin ((P.A *ᵥ x) i)
  aneg : ∀ i : Fin n.nC, yA z i < 0 → ∀ h, uA ⟨i, h⟩ = fin ((P.A *ᵥ x) i)
  wpos : ∀ i, 0 < w i → l i = fin (x i)
  wneg : ∀ i, w i < 0 → u i = fin (x i)
  left : ∀ i, yL z i ≠ 0 → (P.L *ᵥ x - P.lbL) i = 0
  right : ∀ i, yR z i ≠ 0 → (P.R *ᵥ x - P.lbR) i = 0
  both : ∀ i, (P.L *ᵥ x - P.lbL) i = 0 → (P.R *ᵥ x - P.lbR) i = 0 → 0 ≤ yL z i ∧ 0 ≤ yR z i

/-- the penalty parameter `r` outweighs the negative multipliers of the complementarity sides -/
def Prob.Outweighs (P : Prob K n) (r : K) (x : Fin n.nV → K) (z : Fin n.nA → K) : Prop :=
  ∀ i, -yL z i ≤ r * (P.R *ᵥ x - P.lbR) i ∧ -yR z i ≤ r * (P.L *ᵥ x - P.lbL) i

/-- the sides of the complementarity pairs have their lower bounds as only bounds -/
structure Prob.Sides (P : Prob K n) (lA uA : Fin n.nA → Ext K) : Prop where
  lL : ∀ (i : Fin n.nComp) h, lA ⟨n.nC + i, h⟩ = fin (P.lbL i)
  lR : ∀ (i : Fin n.nComp) h, lA ⟨n.nC + n.nComp + i, h⟩ = fin (P.lbR i)
  uL : ∀ (i : Fin n.nComp) h, uA ⟨n.nC + i, h⟩ = pinf
  uR : ∀ (i : Fin n.nComp) h, uA ⟨n.nC + n.nComp + i, h⟩ = pinf

end LCQ
