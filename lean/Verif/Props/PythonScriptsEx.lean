import Verif.Props.PythonScriptsExact
import Verif.Props.PythonScriptsFiles
import Verif.Props.WarmUpMoreEx

/-!
# C80: examples for the Python example scripts
-/

namespace LCQ.PyScript
open Scalar Ext
open WarmUp (solver2 solverA solverB)

/-- the messages and the two arrays a script prints -/
def printed (m : PY (Option (Out (Ext ℚ)))) : Option (List String × List (Ext ℚ) × List (Ext ℚ)) :=
  match m with
  | .ok (some r) => some (r.said, r.x, r.y)
  | _ => none

/-- the hypotheses of the theorems on the runs hold for the solvers below -/
example : AnsBnd solverA 3 ∧ AnsBnd solverB 3 ∧ AnsBnd (solver2 0 fun _ => 1) 3 ∧ 1001 * 3 ≤ intMax := by
  refine ⟨fun k r => ?_, fun k r => ?_, fun k r => ?_, by decide⟩
  · exact ⟨show (-3 : Int) ≤ 3 by decide, show (3 : Int) ≤ 3 by decide⟩
  · exact ⟨show (-3 : Int) ≤ 3 by decide, show (3 : Int) ≤ 3 by decide⟩
  · simp only [solver2, Ex.envOf]
    split <;> exact ⟨show (-3 : Int) ≤ 3 by decide, show (3 : Int) ≤ 3 by decide⟩

/-- warm_up.py ends near the origin if `rand()` never breaks the symmetry (as warm_up.cpp, `C77_origin`) -/
example : printed (warmUp (solver2 0 fun _ => 1) 0 0 60) = some ([], emb [25 / 67108889, 25 / 67108889],
    emb [0, 0, -134217728 / 67108889, -134217728 / 67108889]) := by
  decide +kernel

/-- warm_up_w_A.py prints a solution -/
example : printed (withA solverA 0 0 30) = some ([], emb [1, 0], emb [0, 0, 0, 0, -2]) := by
  decide +kernel

/-- warm_up_binary.py prints a solution -/
example : (printed (binary solverB 0 0 30)).map (fun r => (r.1, r.2.1)) = some ([], emb [1 / 2, 0]) := by
  decide +kernel

/-- warm_up_osqp.py: the hypothesis on the answers of OSQP holds, and the script prints the point near the origin -/
example : (∀ r, ((solver2 0 fun _ => 1).qp 0 r).setup = true ∧ ((solver2 0 fun _ => 1).qp 0 r).warmX = true ∧
      ((solver2 0 fun _ => 1).qp 0 r).warmY = true) ∧
    (printed (osqp (solver2 0 fun _ => 1) 0 0 60)).map (fun r => (r.1, r.2.1)) = some ([], emb [25 / 67108889, 25 / 67108889]) := by
  refine ⟨fun r => ?_, by decide +kernel⟩
  simp only [solver2, Ex.envOf]
  split <;> exact ⟨rfl, rfl, rfl⟩

/-- test_max_penalty.py prints its message -/
example : maxPenalty (solver2 0 fun _ => 1) 0 0 1001 = .ok (some ["Succeeded test (failed to solve LCQP due to maximal penalty)."]) := by
  refine C80_max_exact (M := 3) (fun k r => ?_) (by decide) (WarmUp.solver2_fin 0 _) (WarmUp.solver2_exact 0 _) (fun k q => ?_) 0 0 (le_refl _)
  · simp only [solver2, Ex.envOf]
    split <;> exact ⟨show (-3 : Int) ≤ 3 by decide, show (3 : Int) ≤ 3 by decide⟩
  · simp only [solver2, Ex.envOf]
    split <;> rfl

/-- the numbers of lines with both kinds of line ends, and without a line end at the end of the file -/
example : count (some (some "1\n2\r\n".toList)) = .ok 2 ∧ count (some (some "1\n2".toList)) = .ok 2 ∧ count (some (some [])) = .ok 0 := by
  decide

/-- a directory with `A.txt`, `L.txt` and `lb.txt` only -/
def three (A L lb : String) : FromFile.Dir where
  Q := none
  g := none
  lb := some (some lb.toList)
  ub := none
  L := some (some L.toList)
  R := none
  lbL := none
  lbR := none
  ubL := none
  ubR := none
  A := some (some A.toList)
  lbA := none
  ubA := none
  x0 := none
  y0 := none

/-- the hypotheses of `C80_files_nocomp` and `C80_files_never` hold for some directories -/
example : (count (three "" "1\n" "0\n0\n").lb = .ok 2 ∧ count (three "" "1\n" "0\n0\n").L = .ok 1 ∧ count (three "" "1\n" "0\n0\n").A = .ok 0) ∧
    count (three "1\n1\n" "1\n0\n" "0\n0\n").lb = .ok 2 ∧ count (three "1\n1\n" "1\n0\n" "0\n0\n").L = .ok 2 ∧
    count (three "1\n1\n" "1\n0\n" "0\n0\n").A = .ok 2 := by
  decide

end LCQ.PyScript
