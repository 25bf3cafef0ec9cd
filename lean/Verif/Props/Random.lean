import Verif.Lemmas.Random
import Verif.Props.Perturb
import Verif.Props.CertifyEx

/-!
# C90: random numbers

`perturbStep`, /repo/src/LCQProblem.cpp:1353-1362, calls `rand()`, whose state is shared by everything in the process.  `e.rnd k` is
the result of the call number `k`, and `s.rnd` counts the calls made so far.
-/

set_option linter.unusedSectionVars false

namespace LCQ
open Scalar Ext

variable {α : Type} [Scalar α] {e : Env α} {o : Obj α} {r' : Nat → Nat}

/-- C90: without step perturbation a run does not depend on the random numbers, and uses none. -/
theorem C90_off (hp : o.d.opts.perturb = false) (fuel : Nat) :
    runSolver { e with rnd := r' } fuel o = runSolver e fuel o ∧
    ∀ q, runSolver e fuel o = .ok (some q) → q.2.s.rnd = o.s.rnd := by
  refine ⟨runSolver_rand fuel fun h => (by rw [hp] at h; cases h), fun q hq => ?_⟩
  obtain ⟨_, _, m, _, ⟨_, h⟩ | ⟨h, _⟩⟩ := runSolver_used (r' := e.rnd) hq
  · exact h
  · rw [hp] at h; cases h

/-- C90: with step perturbation the first `fuel` passes depend on the remainders modulo 3 of the next `fuel * nV` random numbers
only. -/
theorem C90_rest {n : Dims} (hn : o.d.dims = some n) (fuel : Nat)
    (h : ∀ k, o.s.rnd ≤ k → k < o.s.rnd + fuel * n.nV → r' k % 3 = e.rnd k % 3) :
    runSolver { e with rnd := r' } fuel o = runSolver e fuel o := by
  refine runSolver_rand fuel fun _ n' hn' => ?_
  rw [hn] at hn'
  injection hn' with hn'
  subst hn'
  exact h

/-- C90: the result of a run that ends depends on the remainders modulo 3 of the random numbers it has used only. -/
theorem C90_used {fuel : Nat} {q : RV × Obj α} (hq : runSolver e fuel o = .ok (some q))
    (h : ∀ k, o.s.rnd ≤ k → k < q.2.s.rnd → r' k % 3 = e.rnd k % 3) :
    runSolver { e with rnd := r' } fuel o = .ok (some q) :=
  (runSolver_used hq).2.1 h

/-- C90: a successful run with step perturbation uses `nV` random numbers for each QP but the first. -/
theorem C90_count {n : Dims} (hn : o.d.dims = some n) (hp : o.d.opts.perturb = true) {fuel : Nat} {o' : Obj α}
    (hq : runSolver e fuel o = .ok (some (.successfulReturn, o'))) :
    ∃ m, o'.s.calls = o.s.calls + 1 + m ∧ o'.s.rnd = o.s.rnd + m * n.nV := by
  obtain ⟨_, _, m, h1, ⟨h, _⟩ | ⟨_, h⟩⟩ := runSolver_used (r' := e.rnd) hq
  · rw [hp] at h; cases h
  · exact ⟨m, h1 rfl, h n hn⟩

/-- C90: each coordinate is perturbed with a random number of its own: -1, 0 or 1 times EPS for the remainders 0, 1 and 2. -/
theorem C90_step {n : Dims} {d : Data α} {s : St α} (hn : d.dims = some n) {x : List α} (hx : s.xk = some x)
    (lx : x.length = n.nV) : ∃ y, perturbStep e d s = .ok { s with
      xk := some y
      rnd := s.rnd + n.nV } ∧ y.length = n.nV ∧
      ∀ i v, x[i]? = some v → y[i]? = some (v +. ofInt ((e.rnd (s.rnd + i) % 3 : Nat) - 1) *. eps) := by
  refine ⟨tab n.nV fun i => gt x i +. ofInt ((e.rnd (s.rnd + i) % 3 : Nat) - 1) *. eps,
    by simp only [perturbStep, hn, hx, initd_some, deref_some, ok_bind, perturbLoop_eq lx], by simp, ?_⟩
  intro i v hv
  obtain ⟨hi, rfl⟩ := List.getElem?_eq_some_iff.mp hv
  have hi' : i < n.nV := by omega
  simp [tab, hi', gt, List.getD_eq_getElem?_getD, hi]

namespace Ex

/-- options with step perturbation (the default) -/
def optsP : Options (Ext ℚ) := { opts2 with perturb := true }

/-- load and solve the same problem twice with the same object -/
def loadTwice (e : Env (Ext ℚ)) (op : Options (Ext ℚ)) (a : DenseArgs (Ext ℚ)) (fuel : Nat) :
    M (Option (RV × Obj (Ext ℚ)) × Option (RV × Obj (Ext ℚ))) := do
  let r ← loadDense e (Obj.new op 2 0 1) a
  let q ← runSolver e fuel r.2
  match q with
  | none => .ok (none, none)
  | some p => do
    let r ← loadDense e p.2 a
    let q' ← runSolver e fuel r.2
    .ok (q, q')

/-- code, point and number of random numbers used -/
structure Pt where
  rv : RV
  x : Option (List (Ext ℚ))
  used : Nat
  deriving DecidableEq

/-- what is looked at in two results -/
def points (r : M (Option (RV × Obj (Ext ℚ)) × Option (RV × Obj (Ext ℚ)))) : Option (Pt × Pt) := match r with
  | .ok (some p, some q) => some (⟨p.1, p.2.s.xk, p.2.s.rnd⟩, ⟨q.1, q.2.s.xk, q.2.s.rnd⟩)
  | _ => none

/-- random numbers which are 1 eight times and then 2 -/
def dice : Env (Ext ℚ) := { solver ans2 with rnd := fun k => if k < 8 then 1 else 2 }

/-- C90: the same problem, loaded and solved twice with the same object, gives two points: the second run uses other random
numbers (QP answers depend on the linear term only). -/
theorem C90_again : points (loadTwice dice optsP args2 20) =
    some (⟨.successfulReturn, some (emb [1, 1]), 8⟩, ⟨.successfulReturn, some (emb [1 + 2221 / 10 ^ 19, 1 + 2221 / 10 ^ 19]), 16⟩) := by
  decide +kernel

/-- without step perturbation it gives the same point twice -/
example : points (loadTwice dice opts2 args2 20) =
    some (⟨.successfulReturn, some (emb [1, 1]), 0⟩, ⟨.successfulReturn, some (emb [1, 1]), 0⟩) := by decide +kernel

/-- as `args2` with `y = 2` instead of `y = 1` -/
def argsR := argsOf [2, 0, 0, 2] [-4, -2] [1] [0] (some [ninf, fin 2]) (some [pinf, fin 2]) none

/-- the answers to the subproblems of `argsR` -/
def ansR (a b : ℚ) : List ℚ × List ℚ × List ℚ := ([max 1 (-a/2), 2], [2 * max 1 (-a/2) + a, 0], [0, 4 + b])

/-- a complementarity tolerance that `setComplementarityTolerance` accepts -/
def optsT : Options (Ext ℚ) := { optsP with complTol := fin (3 / 2 * (2221 / 10 ^ 19)) }

example : (optsP.setComplTol (fin (3 / 2 * (2221 / 10 ^ 19)))).1 = .successfulReturn := by decide +kernel

/-- they are exact -/
theorem exactR : ExactOn (solver ansR) dim (IsSub prob2 ![fin 1, fin 0] (fun _ => pinf) ![ninf, fin 2] ![pinf, fin 2]) := by
  apply solver_exact
  intro g
  refine ⟨![max 1 (-g 0 / 2), 2], ![2 * max 1 (-g 0 / 2) + g 0, 0], ![0, 4 + g 1], rfl, ?_⟩
  have h1 := le_max_left 1 (-g 0 / 2)
  have h2 := le_max_right 1 (-g 0 / 2)
  have c1 : 1 = max 1 (-g 0 / 2) ∨ -g 0 / 2 = max 1 (-g 0 / 2) := by
    rcases max_choice 1 (-g 0 / 2) with h | h
    · exact Or.inl h.symm
    · exact Or.inr h.symm
  generalize max 1 (-g 0 / 2) = a at *
  refine kkt_of (Fin.forall_fin_two.mpr ⟨?_, ?_⟩) (fun i => rfl) (Fin.forall_fin_two.mpr ⟨rfl, ?_⟩)
    (Fin.forall_fin_two.mpr ⟨rfl, ?_⟩)
    (Fin.forall_fin_two.mpr ⟨?_, ?_⟩) (Fin.forall_fin_two.mpr ⟨fun h => ?_, fun h => absurd h (lt_irrefl _)⟩)
    (Fin.forall_fin_two.mpr ⟨fun h => ?_, fun h => absurd h (lt_irrefl _)⟩)
    (Fin.forall_fin_two.mpr ⟨fun h => absurd h (lt_irrefl _), fun _ => rfl⟩)
    (Fin.forall_fin_two.mpr ⟨fun h => absurd h (lt_irrefl _), fun _ => rfl⟩)
  · simpa using h1
  · simp
  · simp
  · simp
  · simp
  · norm_num
  · have h : 0 < 2 * a + g 0 := h
    rcases c1 with c | c
    · exact congrArg fin c
    · linarith
  · have h : 2 * a + g 0 < 0 := h
    linarith

/-- random numbers which are 1 four times and then 2 -/
def diceR : Env (Ext ℚ) := { solver ansR with rnd := fun k => if k < 4 then 1 else 2 }

/-- C90: with exact QP answers and an admissible complementarity tolerance, even the return code depends on the random numbers:
the first run succeeds, the second one of the same problem ends at the penalty limit. -/
theorem C90_code : points (loadTwice diceR optsT argsR 60) =
    some (⟨.successfulReturn, some (emb [1, 2]), 4⟩, ⟨.maxPenaltyReached, some (emb [1 + 2221 / 10 ^ 19, 2 + 2221 / 10 ^ 19]), 58⟩) := by
  decide +kernel

/-- what `C90_count` says about the first run of `C90_again`: five QPs, eight random numbers -/
example : (match go dice optsP args2 20 with
    | .ok (some p) => some (p.2.s.calls, p.2.s.rnd)
    | _ => none) = some (5, 8) := by decide +kernel

/-- other random numbers with the same remainders give the same run, as in `C90_used` -/
example : points (loadTwice { dice with rnd := fun k => dice.rnd k + 3 * k } optsP args2 20) = points (loadTwice dice optsP args2 20) := by
  decide +kernel

end Ex
end LCQ
