import Verif.Spec.Lcqp

/-!
# Optimising on a polygon around the unit circle, exact data (specification)
-/

namespace LCQ.Circle
open Ext

/-- dimensions of the program for `N` directions -/
abbrev dims (N : Nat) : Dims := ⟨2 + 2 * N, N + 1, N⟩

variable {K : Type} [Field K] {N : Nat}

/-- first coordinate -/
def px (x : Fin (dims N).nV → K) : K := x ⟨0, by simp only [dims]; omega⟩

/-- second coordinate -/
def py (x : Fin (dims N).nV → K) : K := x ⟨1, by simp only [dims]; omega⟩

/-- the slack of direction `i` -/
def lam (x : Fin (dims N).nV → K) (i : Fin N) : K := x ⟨2 * i + 2, by have := i.2; simp only [dims]; omega⟩

/-- the weight of direction `i` -/
def the (x : Fin (dims N).nV → K) (i : Fin N) : K := x ⟨2 * i + 3, by have := i.2; simp only [dims]; omega⟩

/-- `d_i · p` -/
def along (d : Nat → K × K) (i : Nat) (a b : K) : K := (d i).1 * a + (d i).2 * b

/-- the data of the program in exact arithmetic -/
def prob (N : Nat) (d : Nat → K × K) : Prob K (dims N) where
  Q i j := if i = j then (if i.1 < 2 then 17 else 5 / 10 ^ 12) else if i.1 < 2 ∧ j.1 < 2 then -15 else 0
  g j := if j.1 = 0 then -35 / 2 else if j.1 = 1 then 177 / 10 else 0
  A i j := if i.1 < N then (if j.1 = 0 then (d i).1 else if j.1 = 1 then (d i).2 else if j.1 = 2 * i + 2 then 1 else 0)
    else if 2 ≤ j.1 ∧ j.1 % 2 = 1 then 1 else 0
  L i j := if j.1 = 2 * i + 2 then 1 else 0
  R i j := if j.1 = 2 * i + 3 then 1 else 0
  lbL := 0
  lbR := 0

/-- lower bounds of the rows of `A`, `L`, `R` -/
def lowA (N : Nat) (i : Fin (dims N).nA) : Ext K := if i.1 < N + 1 then fin 1 else fin 0

/-- upper bounds of the rows of `A`, `L`, `R` -/
def uppA (N : Nat) (i : Fin (dims N).nA) : Ext K := if i.1 < N + 1 then fin 1 else pinf

/-- the linear constraints of the program: `d_i·p + λ_i = 1`, `Σ θ_i = 1`, `λ_i ≥ 0`, `θ_i ≥ 0` -/
structure Linear [LinearOrder K] (d : Nat → K × K) (x : Fin (dims N).nV → K) : Prop where
  slack : ∀ i : Fin N, along d i (px x) (py x) + lam x i = 1
  sum : ∑ i, the x i = 1
  lam : ∀ i, 0 ≤ lam x i
  the : ∀ i, 0 ≤ the x i

end LCQ.Circle
