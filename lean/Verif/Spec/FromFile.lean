import Verif.Spec.Text
import Verif.Spec.Problem
import Verif.Model.FromFile

/-!
# Directories with data files (specification)

Of the model only the type `Dir` of directories is used here.
-/

namespace LCQ
namespace FromFile

/-- number of lines of a text: one for each newline, and one more for characters after the last newline -/
def lineCount (t : List Char) : Nat :=
  t.count '\n' + if t = [] ∨ t.getLast? = some '\n' then 0 else 1

/-- a column: one number on each line, nothing else, the last line ended by a newline as well -/
inductive Column : List Char → List Dbl → Prop where
  /-- empty -/
  | nil : Column [] []
  /-- first line and the rest -/
  | cons {l t : List Char} {v : Dbl} {vs : List Dbl} : l ≠ [] → (∀ c ∈ l, ¬ Text.White c) →
      Text.Number (l ++ '\n' :: t) v ('\n' :: t) → Column t vs → Column (l ++ '\n' :: t) (v :: vs)

/-- the path is a file which holds the numbers `v` as a column -/
def Is (p : Path) (v : List Dbl) : Prop := ∃ t, p = some (some t) ∧ Column t v

/-- required file for an array of `k` numbers -/
def Req (p : Path) (b : Option (List Dbl)) (k : Nat) : Prop := ∃ v, b = some v ∧ v.length = k ∧ Is p v

/-- file for an optional array; no file if there is no array -/
def Opt (p : Path) (b : Option (List Dbl)) (k : Nat) : Prop := (p = none ∧ b = none) ∨ Req p b k

/-- the directory holds the arrays `a` of a problem of size `n`, each one as a column.  Nothing is said about `y0.txt`. -/
structure Holds (d : Dir) (n : Dims) (a : DenseArgs Dbl) : Prop where
  Q : Req d.Q a.Q (n.nV * n.nV)
  g : Req d.g a.g n.nV
  L : Req d.L a.L (n.nComp * n.nV)
  R : Req d.R a.R (n.nComp * n.nV)
  lbL : Req d.lbL a.lbL n.nComp
  ubL : Req d.ubL a.ubL n.nComp
  lbR : Req d.lbR a.lbR n.nComp
  ubR : Req d.ubR a.ubR n.nComp
  lb : Req d.lb a.lb n.nV
  ub : Req d.ub a.ub n.nV
  A : Opt d.A a.A (n.nC * n.nV)
  noA : a.A = none → n.nC = 0
  lbA : Opt d.lbA a.lbA n.nC
  ubA : Opt d.ubA a.ubA n.nC
  x0 : Opt d.x0 a.x0 n.nV

/-- number of lines that can be read from a path: none if it cannot be opened -/
def pathLines : Path → Nat
  | some (some t) => lineCount t
  | _ => 0

/-- the sizes a directory stands for: `nV²` lines (or some more) in `Q.txt`, `nComp·nV` lines in `L.txt`, `nC·nV` lines in
`A.txt`, surplus lines not counted -/
structure Sizes (d : Dir) (n : Dims) : Prop where
  nV : n.nV * n.nV ≤ pathLines d.Q ∧ pathLines d.Q < (n.nV + 1) * (n.nV + 1)
  nComp : n.nComp * n.nV ≤ pathLines d.L ∧ pathLines d.L < (n.nComp + 1) * n.nV
  nC : n.nC * n.nV ≤ pathLines d.A ∧ pathLines d.A < (n.nC + 1) * n.nV

/-- the path does not provide an array of `k` numbers: it cannot be opened, or something else than a number turns up -/
def Unfit (p : Path) (k : Nat) : Prop :=
  (∀ t, p ≠ some (some t)) ∨ ∃ t ts i, p = some (some t) ∧ Text.Toks Text.Number t ts ∧ i < k ∧ ts[i]? = some .bad

/-- one of the files handed over is unfit -/
def AnyUnfit (d : Dir) (n : Dims) : Prop :=
  Unfit d.Q (n.nV * n.nV) ∨ Unfit d.g n.nV ∨ Unfit d.L (n.nComp * n.nV) ∨ Unfit d.R (n.nComp * n.nV) ∨
  Unfit d.lbL n.nComp ∨ Unfit d.ubL n.nComp ∨ Unfit d.lbR n.nComp ∨ Unfit d.ubR n.nComp ∨ Unfit d.lb n.nV ∨ Unfit d.ub n.nV ∨
  (d.A ≠ none ∧ Unfit d.A (n.nC * n.nV)) ∨ (d.lbA ≠ none ∧ Unfit d.lbA n.nC) ∨ (d.ubA ≠ none ∧ Unfit d.ubA n.nC) ∨
  (d.x0 ≠ none ∧ Unfit d.x0 n.nV)

/-- all arrays go through `f` -/
def mapArgs (f : Dbl → Dbl) (a : DenseArgs Dbl) : DenseArgs Dbl where
  Q := a.Q.map (List.map f)
  g := a.g.map (List.map f)
  L := a.L.map (List.map f)
  R := a.R.map (List.map f)
  lbL := a.lbL.map (List.map f)
  ubL := a.ubL.map (List.map f)
  lbR := a.lbR.map (List.map f)
  ubR := a.ubR.map (List.map f)
  A := a.A.map (List.map f)
  lbA := a.lbA.map (List.map f)
  ubA := a.ubA.map (List.map f)
  lb := a.lb.map (List.map f)
  ub := a.ub.map (List.map f)
  x0 := a.x0.map (List.map f)
  y0 := a.y0.map (List.map f)

end FromFile
end LCQ
