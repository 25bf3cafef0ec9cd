import Verif.Props.MatlabResult
import Verif.Props.WarmUpEx

/-!
# C78: examples
-/

namespace LCQ.MexEx
open Scalar Ext WarmUp
open scoped Matrix

/-- MATLAB with an exact QP solver for the warm-up problem -/
def env78 : MexEnv (Ext ℚ) := { Ex.mex Ex.qpGood with e := solver2 0 fun _ => 1, dflt := Options.default 0 0 }

/-- the answers of the QP solver are small -/
theorem env78_iter (k : Nat) (r : Req (Ext ℚ)) : 0 ≤ (env78.e.qp k r).iter ∧ (env78.e.qp k r).iter ≤ 3 := by
  simp only [env78, solver2, Ex.envOf]
  split <;> exact ⟨show (0 : Int) ≤ 3 by decide, show (3 : Int) ≤ 3 by decide⟩

theorem call_is : Ex.call.Is (prob 0) := by
  refine ⟨?_, ?_, .inl ⟨rfl, rfl⟩, ?_, ?_, .inl ⟨rfl, rfl, rfl, rfl⟩⟩
  · ext i j
    change Fin 2 at i j
    fin_cases i <;> fin_cases j <;> rfl
  · funext i
    change Fin 2 at i
    fin_cases i <;> simp [Ex.call, prob]
  · ext i j
    change Fin 1 at i
    change Fin 2 at j
    fin_cases i; fin_cases j <;> rfl
  · ext i j
    change Fin 1 at i
    change Fin 2 at j
    fin_cases i; fin_cases j <;> rfl

theorem bnds78 {b : Bnds (Ext ℚ)} (h : b = ⟨none, none, none, none, none, none, none, none⟩) :
    b.rowLo two2 = (fun _ => fin 0) ∧ b.rowHi two2 = (fun _ => pinf) ∧ b.boxLo two2 = (fun _ => ninf) ∧ b.boxHi two2 = (fun _ => pinf) := by
  subst h
  refine ⟨?_, ?_, ?_, ?_⟩ <;> funext i <;> change Fin 2 at i <;> fin_cases i <;> rfl

/-- the exit flag and `x` of a call -/
def flag (r : MX (Option (MexOut (Ext ℚ)))) : Option (List (Ext ℚ) × Option (List (Ext ℚ))) :=
  match r with
  | .ok (some out) => some (out.x, out.stats.bind fun s => s.lookup "exit_flag")
  | _ => none

/-- all hypotheses of `C78_solution` hold for the warm-up example; the call returns the exit flag 0 -/
example : ∃ (out : MexOut (Ext ℚ)) (s : MxStruct (Ext ℚ)) (x : Fin 2 → ℚ), mexFunction env78 60 3 Ex.call.prhs = .ok (some out) ∧
    out.stats = some s ∧ s.lookup "exit_flag" = some [fin 0] ∧ out.x = ev x ∧ (prob 0).phi x < 1000 * epsK := by
  have hk : flag (mexFunction env78 60 3 Ex.call.prhs) = some (emb [25 / 67108889, 25 / 67108889], some [fin 0]) := by decide +kernel
  unfold flag at hk
  split at hk
  · rename_i out ho
    injection hk with hk
    injection hk with h1 h2
    cases hs : out.stats with
    | none => rw [hs] at h2; cases h2
    | some s =>
      rw [hs] at h2
      obtain ⟨b1, b2, b3, b4⟩ := bnds78 (b := Ex.call.lims.bnds) rfl
      obtain ⟨k, x, v, y, hx, _, _, _, _, _, hphi, _⟩ := C78_solution env78 Ex.call (by decide) (by decide) (p := { opts := Options.default 0 0 }) rfl
        (x0 := 0) (.inl ⟨rfl, rfl⟩) (by rintro v ⟨⟩) (by rintro v ⟨⟩) rfl env78_iter ⟨by decide, by decide, by decide⟩ (solver2_fin 0 _) call_is
        (by ext i j; change Fin 2 at i j; fin_cases i <;> fin_cases j <;> rfl) (r0 := 1 / 100) (f := 2) (ts := 10 ^ 6 * epsK) (tc := 1000 * epsK)
        (by decide +kernel) (by decide +kernel) (by norm_num) (by decide +kernel) (by decide +kernel) (t := 0)
        (by rw [b1, b2, b3, b4]; exact (solver2_exact 0 _).feas.near) ho hs h2
      exact ⟨out, s, x, ho, hs, h2, hx, hphi⟩
  · cases hk

end LCQ.MexEx
