import Verif.Props.Circle
import Verif.Props.Examples

/-!
# C75: examples
-/

namespace LCQ.Circle
open Scalar Ext

/-- one direction, an OSQP that always finds the point `p = (1, -27/170)`, `λ = 0`, `θ = 1` -/
def exEnv : Env (Ext ℚ) := Ex.envOf fun _ _ => Ex.good [1, -27 / 170, 0, 1] [-32 / 17, 0, 32 / 17, 0]

/-- the direction -/
def exDir (_ : Nat) : ℚ × ℚ := (1, 0)

/-- the program ends with exit code 0 after two iterations -/
example : (do
    let r ← main exEnv 1 (stored exDir) 0 0 20
    .ok (r.map fun o => (o.code, o.res.map fun q => q.2.2.iterTotal)) : M (Option (Int × Option Int))) =
    .ok (some (0, some 2)) := by
  decide +kernel

/-- the hypotheses of `C75_result` hold -/
example : FinAns exEnv ∧ NearOn exEnv (dims 1) (IsSub (prob 1 exDir) (lowA 1) (uppA 1) (fun _ => ninf) (fun _ => pinf)) 0 := by
  refine ⟨fun k q _ i => ⟨⟨_, rfl⟩, ⟨_, rfl⟩⟩, ?_⟩
  rintro k q p _ ⟨g, rfl⟩ _ x hx
  refine ⟨x, ?_, fun i => by simp⟩
  have hx' : x = fun i => ([1, -27 / 170, 0, 1] : List ℚ).getD i.1 0 := by
    ext i
    have := hx i
    injection this with this
    exact this.symm
  have hl : Linear exDir x := by
    subst hx'
    refine ⟨?_, ?_, ?_, ?_⟩ <;> decide +kernel
  have := (feasible_iff exDir x).mpr hl
  exact ⟨this.lA, this.uA, this.l, this.u⟩

/-- the hypotheses of `C75_safe` hold -/
example : AnsBnd exEnv 3 ∧ 1001 * 3 ≤ intMax ∧ ∀ r, (exEnv.qp 0 r).setup = true ∧ (exEnv.qp 0 r).warmX = true ∧ (exEnv.qp 0 r).warmY = true := by
  refine ⟨fun k r => ?_, by decide, fun r => ⟨rfl, rfl, rfl⟩⟩
  exact ⟨show (-3 : Int) ≤ 3 by decide, show (3 : Int) ≤ 3 by decide⟩

/-- a square: the midpoint of a side and a vertex are on the boundary, the origin is not -/
example : let d : Nat → ℚ × ℚ := fun i => if i = 0 then (1, 0) else if i = 1 then (0, 1) else if i = 2 then (-1, 0) else (0, -1)
    ((∀ i : Fin 4, along d i 1 0 ≤ 1) ∧ ∃ i : Fin 4, along d i 1 0 = 1) ∧
    ((∀ i : Fin 4, along d i 1 (-1) ≤ 1) ∧ ∃ i : Fin 4, along d i 1 (-1) = 1) ∧
    ¬ ((∀ i : Fin 4, along d i 0 0 ≤ 1) ∧ ∃ i : Fin 4, along d i 0 0 = 1) := by
  decide +kernel

end LCQ.Circle
