import Verif.Props.WarmUp
import Verif.Props.CertifyEx

/-!
# C77: examples and a run that ends away from the solutions
-/

namespace LCQ.WarmUp
open Scalar Ext
open scoped Matrix

/-- an exact solver for the subproblems; `rnd` are the results of `rand()` -/
def solver2 (c : ℚ) (rnd : Nat → Nat) : Env (Ext ℚ) :=
  { Ex.envOf (fun _ q =>
      let x := max c (-(Ex.val q.g 0) / 2)
      let y := max c (-(Ex.val q.g 1) / 2)
      match q.sub with
      | .osqp _ _ => Ex.good [x, y] [-(2 * x + Ex.val q.g 0), -(2 * y + Ex.val q.g 1)]
      | _ => Ex.good [x, y] [0, 0, 2 * x + Ex.val q.g 0, 2 * y + Ex.val q.g 1]) with rnd := rnd }

theorem solver2_fin (c : ℚ) (rnd : Nat → Nat) : FinAns (solver2 c rnd) := by
  intro k q _ i
  simp only [solver2, Ex.envOf]
  split <;> exact ⟨⟨_, rfl⟩, ⟨_, rfl⟩⟩

theorem solver2_exact (c : ℚ) (rnd : Nat → Nat) :
    ExactOn (solver2 c rnd) two2 (IsSub (prob c) (fun _ => fin c) (fun _ => pinf) (fun _ => ninf) (fun _ => pinf)) := by
  rintro k q _ hq ⟨g, rfl⟩ hok
  have h0 : Ex.val q.g 0 = g (0 : Fin 2) := by rw [hq.g]; rfl
  have h1 : Ex.val q.g 1 = g (1 : Fin 2) := by rw [hq.g]; rfl
  let v : Fin 2 → ℚ := ![max c (-(g (0 : Fin 2)) / 2), max c (-(g (1 : Fin 2)) / 2)]
  let z : Fin 2 → ℚ := ![2 * v 0 + g (0 : Fin 2), 2 * v 1 + g (1 : Fin 2)]
  have hv : ∀ i : Fin 2, v i = max c (-(g i) / 2) := by
    intro i
    fin_cases i <;> rfl
  have hz : ∀ i : Fin 2, z i = 2 * v i + g i := by
    intro i
    fin_cases i <;> rfl
  have hA : ∀ i : Fin 2, ((prob c).AA *ᵥ v) i = v i := fun i => congrFun (prob_AA c v) i
  have hzp : ∀ i : Fin 2, 0 ≤ z i := by
    intro i
    have := le_max_right c (-(g i) / 2)
    rw [hz, hv]
    linarith
  refine ⟨v, z, 0, ?_, ⟨⟨?_, ?_, ?_, ?_⟩, ?_, ?_, ?_, ?_, ?_⟩⟩
  · obtain ⟨sub, q2, q3, q4, q5, q6, q7, q8, q9, q10, q11⟩ := q
    dsimp only at h0 h1
    cases sub with
    | dense a b c d =>
      refine ⟨fun i => ?_, fun i => ?_, fun i => ?_⟩ <;> change Fin 2 at i <;> fin_cases i <;>
        simp [solver2, Ex.envOf, Ex.good, h0, h1, v, z]
    | sparse a b c d =>
      refine ⟨fun i => ?_, fun i => ?_, fun i => ?_⟩ <;> change Fin 2 at i <;> fin_cases i <;>
        simp [solver2, Ex.envOf, Ex.good, h0, h1, v, z]
    | osqp a b =>
      refine ⟨fun i => ?_, fun i => ?_, rfl⟩ <;> change Fin 2 at i <;> fin_cases i <;>
        simp [solver2, Ex.envOf, Ex.good, h0, h1, v, z]
  · intro i
    change Fin 2 at i
    show (fin c <=. fin (((prob c).AA *ᵥ v) i)) = true
    rw [hA, hv]
    simp
  · intro i; rfl
  · intro i; rfl
  · intro i; rfl
  · show (prob c).Q *ᵥ v + g = (prob c).AAᵀ *ᵥ z + 0
    rw [prob_AAt, prob_Q, add_zero]
    funext i
    change Fin 2 at i
    rw [hz]
    fin_cases i <;> rfl
  · intro i hi
    change Fin 2 at i
    show (fin c : Ext ℚ) = fin (((prob c).AA *ᵥ v) i)
    rw [hA, hv]
    rw [hz, hv] at hi
    rcases max_choice c (-(g i) / 2) with hm | hm
    · rw [hm]
    · rw [hm] at hi
      exfalso
      linarith
  · intro i hi
    exact absurd hi (not_lt.mpr (hzp i))
  · intro i hi; exact absurd hi (lt_irrefl _)
  · intro i hi; exact absurd hi (lt_irrefl _)

/-- the parts of the result of a program that are looked at -/
structure Seen where
  /-- exit code -/
  code : Int
  /-- `xOpt` -/
  x : List (Ext ℚ)
  /-- `yOpt` -/
  y : List (Ext ℚ)
  /-- solution status -/
  status : AlgStat
  /-- number of iterations -/
  iters : Int
  /-- final penalty parameter -/
  rho : Ext ℚ
  deriving DecidableEq

/-- the parts of the result of a program that are looked at -/
def seen (m : M (Option (Out (Ext ℚ)))) : Option Seen :=
  match m with
  | .ok (some ⟨c, some (x, y, some s)⟩) => some ⟨c, x, y, s.status, s.iterTotal, s.rhoOpt⟩
  | _ => none

/-- C77: the third case of `C77_solution` occurs.  With an exact QP solver, and if `rand()` never breaks the symmetry between the two
variables, warm_up.cpp ends with exit code 0 within `10⁻⁶` of the origin, where the objective is larger than the least one by more than
0.99.  The reported status is that of a strongly stationary point, although both multipliers of the pair are below -1.99. -/
theorem C77_origin : ∃ (e : Env (Ext ℚ)) (x : Fin 2 → ℚ) (y0 y1 y2 y3 : ℚ) (S : Stats (Ext ℚ)), FinAns e ∧
    ExactOn e two2 (IsSub (prob 0) (fun _ => fin 0) (fun _ => pinf) (fun _ => ninf) (fun _ => pinf)) ∧
    main e 0 0 (warmUp 0 0) 60 = .ok (some ⟨0, some (ev x, emb [y0, y1, y2, y3], some S)⟩) ∧ S.status = .sStat ∧
    y2 < -199 / 100 ∧ y3 < -199 / 100 ∧
    |x 0| ≤ 1 / 10 ^ 6 ∧ |x 1| ≤ 1 / 10 ^ 6 ∧ (prob 0).obj ![1, 0] + 99 / 100 < (prob 0).obj x := by
  have hk : seen (main (solver2 0 fun _ => 1) 0 0 (warmUp 0 0) 60) =
      some ⟨0, emb [25 / 67108889, 25 / 67108889],
        emb [0, 0, -134217728 / 67108889, -134217728 / 67108889], .sStat, 52, fin (134217728 / 25)⟩ := by
    decide +kernel
  unfold seen at hk
  split at hk
  · rename_i c xs ys S ho
    injection hk with hk
    injection hk with h1 h2 h3 h4
    subst h1 h2 h3
    refine ⟨_, ![25 / 67108889, 25 / 67108889], 0, 0, -134217728 / 67108889, -134217728 / 67108889, S, solver2_fin 0 _, solver2_exact 0 _, ho, h4, by norm_num,
      by norm_num, ?_, ?_, ?_⟩
    · simp only [Matrix.cons_val_zero]; rw [abs_of_pos (by norm_num)]; norm_num
    · simp only [Matrix.cons_val_one]; rw [abs_of_pos (by norm_num)]; norm_num
    · rw [prob_obj, prob_obj]
      norm_num
  · cases hk

/-- whether an entry is close to a number -/
def close (a : ℚ) : Ext ℚ → Bool
  | .fin v => decide (|v - a| ≤ 1 / 10 ^ 6)
  | _ => false

/-- once the symmetry is broken, the program ends near `(1, 0)` with an S-stationary point and a much smaller penalty parameter -/
example : (seen (main (solver2 0 fun n => if n = 60 then 2 else 1) 0 0 (warmUp 0 0) 60)).map
    (fun q => ({ q with x := [], y := [] }, q.x.map (close 1), q.x.map (close 0))) =
    some (⟨0, [], [], .sStat, 40, fin (524288 / 25)⟩, [true, false], [false, true]) := by
  decide +kernel

/-- the hypotheses of `C77_safe` and `C77_max_safe` hold -/
example : AnsBnd (solver2 0 fun _ => 1) 3 ∧ 1001 * 3 ≤ intMax ∧
    ∀ r, ((solver2 0 fun _ => 1).qp 0 r).setup = true ∧ ((solver2 0 fun _ => 1).qp 0 r).warmX = true ∧
      ((solver2 0 fun _ => 1).qp 0 r).warmY = true := by
  refine ⟨fun k r => ?_, by decide, fun r => ?_⟩
  · simp only [solver2, Ex.envOf]
    split <;> exact ⟨show (-3 : Int) ≤ 3 by decide, show (3 : Int) ≤ 3 by decide⟩
  · simp only [solver2, Ex.envOf]
    split <;> exact ⟨rfl, rfl, rfl⟩

/-- the shifted program, with OSQP -/
example : (seen (main (solver2 1 fun _ => 1) 0 0 (shifted 0 0) 100)).map (fun q => (q.code, q.x)) =
    some (0, emb [67108914 / 67108889, 67108914 / 67108889]) := by
  decide +kernel

end LCQ.WarmUp
