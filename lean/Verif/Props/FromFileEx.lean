import Verif.Props.FromFile
import Verif.Props.UnitTests

/-!
# C76: examples
-/

namespace LCQ
namespace FromFile
open Scalar Text

/-- an integer -/
def int' (z : Int) : Dbl := lit z 0

/-- the problem of the example `warm_up` with all arrays given -/
def exArgs : DenseArgs Dbl where
  Q := some [int' 2, zero, zero, int' 2]
  g := some [int' (-2), int' (-2)]
  L := some [one, zero]
  R := some [zero, one]
  lbL := some [zero]
  ubL := some [.pinf]
  lbR := some [zero]
  ubR := some [.pinf]
  lb := some [zero, zero]
  ub := some [.pinf, .pinf]
  x0 := some [one, one]

/-- its directory -/
def exDir : Dir := dirOf exArgs none

/-- what is in the file `L.txt` -/
example : exDir.L = some (some (['1', '.', '0', '0', '0', '0', '0', '0', '\n'] ++ ['0', '.', '0', '0', '0', '0', '0', '0', '\n'])) := by
  decide +kernel

example : Exact exArgs ⟨2, 0, 1⟩ :=
  ⟨⟨_, rfl, rfl⟩, ⟨_, rfl, rfl⟩, ⟨_, rfl, rfl⟩, ⟨_, rfl, rfl⟩, ⟨_, rfl, rfl⟩, ⟨_, rfl, rfl⟩, ⟨_, rfl, rfl⟩, ⟨_, rfl, rfl⟩,
    ⟨_, rfl, rfl⟩, ⟨_, rfl, rfl⟩, (by rintro _ ⟨⟩), fun _ => rfl, (by rintro _ ⟨⟩), (by rintro _ ⟨⟩), by rintro _ ⟨⟩; rfl⟩

/-- result of a run of the program -/
def result (m : M (Option Out)) : Option (Option Out) :=
  match m with
  | .ok q => some q
  | .error _ => none

/-- the program solves the problem -/
example : result (main (UnitTest.env fun k => k * k + 1) (some exDir) 0 0 2000) = some (some (.exit 0)) := by decide +kernel

/-- `x0.txt` is used, `y0.txt` is not -/
example : (args exDir).x0.isSome = true ∧ (args { exDir with y0 := exDir.Q }).y0.isSome = false := by decide +kernel

/-- without `Q.txt` -/
example : result (main (UnitTest.env fun k => k) (some { exDir with Q := none }) 0 0 0) = some (some .divZero) := by decide +kernel

/-- without `g.txt` -/
example : result (main (UnitTest.env fun k => k) (some { exDir with g := none }) 0 0 0) = some (some (.exit 1)) := by decide +kernel

/-- without `L.txt` -/
example : main (UnitTest.env fun k => k) (some { exDir with L := none }) 0 0 0 = .error .uninit :=
  C76_nocomp _ _ _ _ _ (n := ⟨2, 0, 0⟩) ⟨by decide +kernel, by decide +kernel, by decide +kernel⟩ (by decide) rfl

/-- a directory in which a matrix row is a line: `Q` is the unit matrix of size 2 -/
def rowDir : Dir := { exDir with
  Q := some (some ['1', ' ', '0', '\n', '0', ' ', '1', '\n'])
  L := some (some ['1', ' ', '0', '\n'])
  R := some (some ['0', ' ', '1', '\n']) }

/-- a token is a number -/
def isNum : Tok Dbl → Bool
  | .num _ => true
  | .bad => false

/-- the first tokens are numbers -/
def okFile (f : File Dbl) (k : Nat) : Bool :=
  match f with
  | none => false
  | some ts => (ts.take k).all isNum

theorem okFile_readable {f : File Dbl} {k : Nat} (h : okFile f k = true) : Readable f k := by
  cases f with
  | none => cases h
  | some ts =>
    refine ⟨ts, rfl, fun i hi hb => ?_⟩
    have := List.all_eq_true.mp h .bad (List.mem_of_getElem? (i := i) (by rw [List.getElem?_take_of_lt hi, hb]))
    cases this

/-- C76 (a defect): a matrix with its rows as lines is taken for a smaller one without any complaint: here one variable
instead of two. -/
theorem C76_rows : Sizes rowDir ⟨1, 0, 1⟩ ∧ ¬ AnyUnfit rowDir ⟨1, 0, 1⟩ := by
  refine ⟨⟨by decide +kernel, by decide +kernel, by decide +kernel⟩, ?_⟩
  rw [anyUnfit_iff, not_not]
  have key : ∀ {p : Path} {k : Nat}, okFile (file p) k = true → ∀ f, some (file p) = some f → Readable f k := by
    rintro p k h f ⟨⟩; exact okFile_readable h
  exact ⟨key (by decide +kernel), key (by decide +kernel), key (by decide +kernel), key (by decide +kernel), key (by decide +kernel),
    key (by decide +kernel), key (by decide +kernel), key (by decide +kernel), (by rintro _ ⟨⟩), (by rintro _ ⟨⟩), (by rintro _ ⟨⟩),
    key (by decide +kernel), key (by decide +kernel), (key (p := rowDir.x0) (by decide +kernel)), (by rintro _ ⟨⟩)⟩

end FromFile
end LCQ
