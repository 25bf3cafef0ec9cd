import Verif.Props.WarmUpMore
import Verif.Props.WarmUpEx

/-!
# C77: examples for the programs with more constraints
-/

namespace LCQ.WarmUp
open Scalar Ext

/-- a solver that answers every subproblem of warm_up_w_A.cpp with the point `(1, 0)` and the multipliers that make it stationary -/
def solverA : Env (Ext ℚ) :=
  { Ex.envOf (fun _ q => Ex.good [1, 0] [0, 0, 0, 2 + Ex.val q.g 0, Ex.val q.g 1]) with rnd := fun _ => 1 }

/-- a solver that answers every subproblem of warm_up_binary.cpp with the point `(1/2, 0)` and the multipliers that make it stationary -/
def solverB : Env (Ext ℚ) :=
  { Ex.envOf (fun _ q => Ex.good [1 / 2, 0] [0, 0, 0, 0, Ex.val q.g 1, -(1 + Ex.val q.g 0)]) with rnd := fun _ => 1 }

/-- exit code, `xOpt` and `yOpt` -/
def printed (m : M (Option (Out (Ext ℚ)))) : Option (Int × List (Ext ℚ) × List (Ext ℚ)) :=
  match m with
  | .ok (some ⟨c, some (x, y, _)⟩) => some (c, x, y)
  | _ => none

/-- C77: `C77_withA` and `C77_withA_axis` are not empty -/
example : FinAns solverA ∧ NearOn solverA ⟨2, 1, 1⟩ (IsSub probA lowA (fun _ => pinf) (fun _ => ninf) (fun _ => pinf)) 0 ∧
    printed (main solverA 0 0 (withA 0 0) 30) = some (0, emb [1, 0], emb [0, 0, 0, 0, -2]) := by
  refine ⟨?_, ?_, by decide +kernel⟩
  · intro k q _ i
    exact ⟨⟨_, rfl⟩, ⟨_, rfl⟩⟩
  · rintro k q _ hq ⟨g, rfl⟩ hok x hx
    refine ⟨x, ?_, fun i => by simp⟩
    have h0 : x (0 : Fin 2) = 1 := by
      have := hx (0 : Fin 2)
      injection this with this
      exact this.symm
    have h1 : x (1 : Fin 2) = 0 := by
      have := hx (1 : Fin 2)
      injection this with this
      exact this.symm
    have : Feasible probA lowA (fun _ => pinf) (fun _ => ninf) (fun _ => pinf) x :=
      (C77_meaningA x).1.mpr (by rw [h0, h1]; norm_num)
    exact ⟨this.lA, this.uA, this.l, this.u⟩

/-- C77: `C77_binary` and `C77_binary_values` are not empty -/
example : FinAns solverB ∧ NearOn solverB ⟨2, 0, 2⟩ (IsSub probB lowB (fun _ => pinf) (fun _ => ninf) (fun _ => pinf)) 0 ∧
    (printed (main solverB 0 0 (binary 0 0) 30)).map (fun r => (r.1, r.2.1)) = some (0, emb [1 / 2, 0]) := by
  refine ⟨?_, ?_, by decide +kernel⟩
  · intro k q _ i
    exact ⟨⟨_, rfl⟩, ⟨_, rfl⟩⟩
  · rintro k q _ hq ⟨g, rfl⟩ hok x hx
    refine ⟨x, ?_, fun i => by simp⟩
    have h0 : x (0 : Fin 2) = 1 / 2 := by
      have := hx (0 : Fin 2)
      injection this with this
      exact this.symm
    have h1 : x (1 : Fin 2) = 0 := by
      have := hx (1 : Fin 2)
      injection this with this
      exact this.symm
    have : Feasible probB lowB (fun _ => pinf) (fun _ => ninf) (fun _ => pinf) x :=
      (C77_meaningB x).1.mpr (by rw [h0, h1]; norm_num)
    exact ⟨this.lA, this.uA, this.l, this.u⟩

end LCQ.WarmUp
