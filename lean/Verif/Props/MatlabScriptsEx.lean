import Verif.Props.MatlabScriptsCircle
import Verif.Props.MatlabCallEx

/-!
# C79: examples
-/

namespace LCQ.Script
open Scalar Ext
open scoped Matrix

/-- the run behind a call is successful -/
def okRun (E : MexEnv (Ext ℚ)) (fuel : Nat) (prhs : List (Mx (Ext ℚ))) : Bool :=
  match mexLoad E prhs with
  | .ok (_, _, o) =>
    match runSolver E.e fuel o with
    | .ok (some (.successfulReturn, _)) => true
    | _ => false
  | .error _ => false

theorem okRun_spec {E : MexEnv (Ext ℚ)} {fuel : Nat} {prhs : List (Mx (Ext ℚ))} (h : okRun E fuel prhs = true) :
    ∃ m p o o', mexLoad E prhs = .ok (m, p, o) ∧ runSolver E.e fuel o = .ok (some (.successfulReturn, o')) := by
  unfold okRun at h
  split at h
  · rename_i m p o hl
    split at h
    · rename_i o' hr
      exact ⟨m, p, o, o', hl, hr⟩
    · cases h
  · cases h

theorem ints_mex {E : MexEnv (Ext ℚ)} (h : E.toInt = (Ex.mex Ex.qpGood).toInt) : Ints E := by
  intro k h0 h2
  rw [h]
  interval_cases k <;> decide +kernel

/-- warm_up.m with the three QP solvers: all hypotheses of `C79_warmUp_solution` hold -/
theorem warmUp_example (s : Int) (h0 : 0 ≤ s) (h2 : s ≤ 2) : ∃ (a b r : ℚ) (y : Option (List (Ext ℚ))),
    warmUp MexEx.env78 60 s = .ok (some (fin a, fin b, y)) ∧ WarmUp.Near2 r a b := by
  have hk : okRun MexEx.env78 60 (warmUpArgs s) = true := by
    interval_cases s <;> decide +kernel
  obtain ⟨m, p, o, o', hl, hr⟩ := okRun_spec hk
  obtain ⟨a, b, r, y, h, _, _, hn⟩ := C79_warmUp_solution (E := MexEx.env78) (qd := 0) (sd := 0) rfl (ints_mex rfl) h0 h2 MexEx.env78_iter
    (by decide) (fun _ r => by
      simp only [MexEx.env78, WarmUp.solver2, Ex.envOf]
      split <;> exact ⟨rfl, rfl, rfl⟩) (WarmUp.solver2_fin 0 _) (WarmUp.solver2_exact 0 _) hl hr
  exact ⟨a, b, r, y, h, hn⟩

/-- a QP solver which always answers with the point `x`; the last multiplier is `y` plus the last entry of the linear term times `c` -/
def always (x : List ℚ) (y z : ℚ) (c : ℚ) : MexEnv (Ext ℚ) :=
  { Ex.mex (fun _ q => Ex.good x [0, 0, y, z + c * Ex.val q.g 1]) with dflt := Options.default 0 0 }

theorem always_iter (x : List ℚ) (y z c : ℚ) (k : Nat) (r : Req (Ext ℚ)) :
    0 ≤ ((always x y z c).e.qp k r).iter ∧ ((always x y z c).e.qp k r).iter ≤ 3 :=
  ⟨show (0 : Int) ≤ 3 by decide, show (3 : Int) ≤ 3 by decide⟩

theorem always_fin (x : List ℚ) (y z c : ℚ) : FinAns (always x y z c).e := fun _ _ _ _ => ⟨⟨_, rfl⟩, ⟨_, rfl⟩⟩

theorem always_near {x : List ℚ} {y z' c : ℚ} {P : Prob ℚ ⟨2, 0, 1⟩} {lA uA : Fin 2 → Ext ℚ} {l u : Fin 2 → Ext ℚ} {v : Fin 2 → ℚ}
    (hv : Feasible (n := ⟨2, 0, 1⟩) P lA uA l u v) (hx : v 0 = x.getD 0 0 ∧ v 1 = x.getD 1 0) :
    NearOn (always x y z' c).e ⟨2, 0, 1⟩ (IsSub P lA uA l u) 0 := by
  rintro k q p _ ⟨g, rfl⟩ _ z hz
  have e : z = v := by
    funext i
    change Fin 2 at i
    have h0 := hz (0 : Fin 2)
    have h1 := hz (1 : Fin 2)
    injection h0 with h0
    injection h1 with h1
    fin_cases i
    · exact h0.symm.trans hx.1.symm
    · exact h1.symm.trans hx.2.symm
  subst e
  exact ⟨z, ⟨hv.lA, hv.uA, hv.l, hv.u⟩, fun i => by simp⟩

/-- generalized_constraints.m: all hypotheses of `C79_generalized_solution` hold -/
example : ∃ (x1 x2 : Ext ℚ) (y : Option (List (Ext ℚ))) (f : MxStruct (Ext ℚ)) (a b : ℚ),
    generalized (always [1, 0] 0 0 1) 10 = .ok (some ((x1, x2, y), f)) ∧ x1 = fin a ∧ x2 = fin b ∧ (2 - a) * b < 1000 * epsK := by
  have hk : (match generalized (always [1, 0] 0 0 1) 10 with
      | .ok (some (_, f)) => f.lookup "exit_flag"
      | _ => none) = some [fin (0 : ℚ)] := by decide +kernel
  split at hk
  · rename_i w f h
    obtain ⟨x1, x2, y⟩ := w
    obtain ⟨k, a, b, v, w, h1, h2, _, _, _, _, _, _, h3⟩ := C79_generalized_solution (E := always [1, 0] 0 0 1) (qd := 0) (sd := 0) rfl
      (always_iter _ _ _ _) (by decide) (always_fin _ _ _ _) (t := 0)
      (always_near (v := ![1, 0]) ⟨by decide +kernel, by decide +kernel, by decide +kernel, by decide +kernel⟩ ⟨rfl, rfl⟩) h hk
    exact ⟨x1, x2, y, f, a, b, h, h1, h2, h3⟩
  · cases hk

/-- scale1.m: all hypotheses of `C79_scale_solution` hold -/
example : ∃ (out : MexOut (Ext ℚ)) (a b : ℚ), scale (always [0, 0] (-200) (-2) 0) 10 = .ok (some out) ∧ out.x = [fin a, fin b] ∧
    a * b < 1000 * epsK := by
  have hk : (match scale (always [0, 0] (-200) (-2) 0) 10 with
      | .ok (some out) => out.stats.bind fun f => f.lookup "exit_flag"
      | _ => none) = some [fin (0 : ℚ)] := by decide +kernel
  split at hk
  · rename_i out h
    cases hs : out.stats with
    | none => rw [hs] at hk; cases hk
    | some f =>
      rw [hs] at hk
      obtain ⟨k, a, b, v, w, y0, y1, y2, y3, h1, _, _, _, _, _, _, _, h2, _⟩ := C79_scale_solution (E := always [0, 0] (-200) (-2) 0) (qd := 0)
        (sd := 0) rfl (ints_mex rfl) (always_iter _ _ _ _) (by decide) (always_fin _ _ _ _) (t := 0)
        (always_near (v := ![0, 0]) ⟨by decide +kernel, by decide +kernel, by decide +kernel, by decide +kernel⟩ ⟨rfl, rfl⟩) h hs hk
      exact ⟨out, a, b, h, h1, h2⟩
  · cases hk

/-! ## the circle with one direction -/

/-- a QP solver for the problem with the direction `(1, 0)`: the point `(1, -27/170)`, `λ = 0`, `θ = 1` -/
def one1 : MexEnv (Ext ℚ) :=
  { Ex.mex (fun _ q =>
      let a := 17 + 15 * 27 / 170 + Ex.val q.g 0
      let y := [a, 1 / 2 ^ 52 + Ex.val q.g 3, Ex.val q.g 2 - a, 0]
      match q.sub with
      | .osqp _ _ => Ex.good [1, -27 / 170, 0, 1] (y.map fun v => -v)
      | _ => Ex.good [1, -27 / 170, 0, 1] ([0, 0, 0, 0] ++ y)) with dflt := Options.default 0 0 }

def dir1 : Nat → ℚ × ℚ := fun _ => (1, 0)

theorem one1_good (k : Nat) (q : Req (Ext ℚ)) : ∃ y, one1.e.qp k q = Ex.good [1, -27 / 170, 0, 1] y := by
  simp only [one1, Ex.mex, Ex.envOf]
  split <;> exact ⟨_, rfl⟩

theorem one1_near : NearOn one1.e (LCQ.Circle.dims 1) (IsSub (circleProb 1 (shift dir1)) (LCQ.Circle.lowA 1) (LCQ.Circle.uppA 1) (fun _ => ninf)
    (fun _ => pinf)) 0 := by
  rintro k q p _ ⟨g, rfl⟩ _ z hz
  obtain ⟨y, hy⟩ := one1_good k q
  rw [hy] at hz
  have e : z = (![1, -27 / 170, 0, 1] : Fin 4 → ℚ) := by
    funext i
    change Fin 4 at i
    have h := hz i
    injection h with h
    rw [← h]
    fin_cases i <;> rfl
  subst e
  have hv : Feasible (circleProb 1 (shift dir1)) (LCQ.Circle.lowA 1) (LCQ.Circle.uppA 1) (fun _ => ninf) (fun _ => pinf) ![1, -27 / 170, 0, 1] :=
    ⟨by decide +kernel, by decide +kernel, by decide +kernel, by decide +kernel⟩
  exact ⟨_, ⟨hv.lA, hv.uA, hv.l, hv.u⟩, fun i => by simp⟩

/-- solvers_test.m with one direction and each of the three QP solvers: all hypotheses of `C79_test_solution` hold -/
example (s : Int) (h0 : 0 ≤ s) (h2 : s ≤ 2) : ∃ (c : Circle (Ext ℚ)) (w : Ext ℚ) (x : Fin 4 → ℚ) (t : ℚ),
    circle 1 (LCQ.Circle.stored dir1) = .ok c ∧ testCall one1 10 c s = .ok (some (w, fin 0)) ∧
    OnPolygon 1 (shift dir1) t (1000 * epsK) x := by
  obtain ⟨c, hc, hA⟩ := circle_ok 1 (LCQ.Circle.stored dir1)
  have hk : ((circle 1 (LCQ.Circle.stored dir1)).toOption.map fun c => match testCall one1 10 c s with
      | .ok r => r
      | .error _ => none) = some (some (fin 0, fin 0)) := by
    interval_cases s <;> decide +kernel
  rw [hc] at hk
  have hk : (match testCall one1 10 c s with
      | .ok r => r
      | .error _ => none) = some (fin 0, fin 0) := Option.some.inj hk
  have h : testCall one1 10 c s = .ok (some (fin 0, fin 0)) := by
    split at hk
    · rename_i r hr
      rw [hr, hk]
    · cases hk
  obtain ⟨_, _, _, _, k, x, _, _, _, _, _, _, hp, _⟩ := C79_test_solution (E := one1) (qd := 0) (sd := 0) (N := 1) (d := dir1) (M := 3) rfl
    (ints_mex rfl) h0 h2 (fun k r => by
      obtain ⟨y, hy⟩ := one1_good k r
      rw [hy]
      exact ⟨show (0 : Int) ≤ 3 by decide, show (3 : Int) ≤ 3 by decide⟩) (by decide) (fun _ r => by
      obtain ⟨y, hy⟩ := one1_good 0 r
      rw [hy]
      exact ⟨rfl, rfl, rfl⟩) (fun k r _ i => by
      obtain ⟨y, hy⟩ := one1_good k r
      rw [hy]
      exact ⟨⟨_, rfl⟩, ⟨_, rfl⟩⟩) one1_near (le_refl 1) hA h
  exact ⟨c, _, x, _, hc, h, hp⟩

/-- optimize_on_circle.m with one direction: all hypotheses of `C79_circle_solution` hold -/
example : ∃ (c : Circle (Ext ℚ)) (row : Row (Ext ℚ)) (x : Fin 4 → ℚ) (t : ℚ), circle 1 (LCQ.Circle.stored dir1) = .ok c ∧
    circleCall one1 10 c (fin (1 / 10 ^ 7)) = .ok (some row) ∧ OnPolygon 1 (shift dir1) t (1000 * epsK) x := by
  obtain ⟨c, hc, hA⟩ := circle_ok 1 (LCQ.Circle.stored dir1)
  have hk : ((circle 1 (LCQ.Circle.stored dir1)).toOption.map fun c => okRun one1 10 (c.args true (circleParams c (fin (1 / 10 ^ 7))))) =
      some true := by decide +kernel
  rw [hc] at hk
  obtain ⟨m, p, o, o', hl, hr⟩ := okRun_spec (Option.some.inj hk)
  obtain ⟨k, x, _, _, u, h, _, _, _, hp, _⟩ := C79_circle_solution (E := one1) (qd := 0) (sd := 0) (N := 1) (d := dir1) (M := 3) rfl
    (ints_mex rfl) (fun k r => by
      obtain ⟨y, hy⟩ := one1_good k r
      rw [hy]
      exact ⟨show (0 : Int) ≤ 3 by decide, show (3 : Int) ≤ 3 by decide⟩) (by decide) (fun k r _ i => by
      obtain ⟨y, hy⟩ := one1_good k r
      rw [hy]
      exact ⟨⟨_, rfl⟩, ⟨_, rfl⟩⟩) one1_near (le_refl 1) hA (by norm_num) hl hr
  exact ⟨c, _, x, _, hc, h, hp⟩

/-- both scripts as a whole, with one direction: all rows are recorded -/
example : (match solversTest one1 10 (fun _ => LCQ.Circle.stored dir1) [1] with
    | .ok (some rows) => rows
    | _ => []) = [[(fin 0, fin 0), (fin 0, fin 0), (fin 0, fin 0)]] := by decide +kernel

example : (match optimizeOnCircle one1 57 1 (LCQ.Circle.stored dir1) with
    | .ok (some rows) => rows.length
    | _ => 0) = 47 := by decide +kernel

end LCQ.Script
