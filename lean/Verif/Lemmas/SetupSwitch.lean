import Verif.Lemmas.ModeSwitch
import Verif.Props.Perturb
import Verif.Props.Switch

/-!
# Switching a loaded object to sparse mode in exact arithmetic
-/

namespace LCQ
open Scalar Ext
open scoped Matrix

variable {K : Type} [Field K] [LinearOrder K] [IsStrictOrderedRing K] {n : Dims} {P : Prob K n} {e : Env (Ext K)}
  {o : Obj (Ext K)} {x0 : Fin n.nV → K} {r0 f : K}

/-- switching a dense object that was never run to sparse mode: the object still holds the problem, the guess, the options and
the bounds -/
theorem Setup.toSparse (hS : Setup e o n P x0 r0 f) (hu : Untouched o n) (hd : o.d.sparse = false) :
    ∃ o', switchToSparse o = .ok (.successfulReturn, o') ∧ o'.d.sparse = true ∧ o'.d.opts = o.d.opts ∧ Untouched o' n ∧
      Setup e o' n P x0 r0 f ∧ (∀ b, Stored o n b → Stored o' n b) := by
  obtain ⟨o1, h1, hu1, hr1, hs1, ho1⟩ := hu.toSparse hS.ready
  have hC : DnsIs o.d.C n.nV n.nV P.C := by
    have := hS.holds.C
    simpa only [MatIs, hd, Bool.false_eq_true, if_false] using this
  obtain ⟨o2, h2, hs2, hrest, hm, hc⟩ := C17_toSparse o n P.Q P.A P.L P.R P.C hS.holds.dims hd hS.holds.mats hC
  have he : o2 = o1 := by
    rw [h1] at h2
    injection h2 with h2
    injection h2 with _ h2
    exact h2.symm
  subst he
  have f1 : o2.s = o.s := (congrArg (fun q : Obj (Ext K) => q.s) hrest :)
  have f2 : o2.d.g = o.d.g := (congrArg (fun q : Obj (Ext K) => q.d.g) hrest :)
  have f3 : o2.d.lbL = o.d.lbL := (congrArg (fun q : Obj (Ext K) => q.d.lbL) hrest :)
  have f4 : o2.d.lbR = o.d.lbR := (congrArg (fun q : Obj (Ext K) => q.d.lbR) hrest :)
  have f5 : o2.d.gPhi = o.d.gPhi := (congrArg (fun q : Obj (Ext K) => q.d.gPhi) hrest :)
  have f6 : o2.d.phiConst = o.d.phiConst := (congrArg (fun q : Obj (Ext K) => q.d.phiConst) hrest :)
  have f7 : o2.d.lbA = o.d.lbA := (congrArg (fun q : Obj (Ext K) => q.d.lbA) hrest :)
  have f8 : o2.d.ubA = o.d.ubA := (congrArg (fun q : Obj (Ext K) => q.d.ubA) hrest :)
  have f9 : o2.d.lbTmp = o.d.lbTmp := (congrArg (fun q : Obj (Ext K) => q.d.lbTmp) hrest :)
  have f10 : o2.d.ubTmp = o.d.ubTmp := (congrArg (fun q : Obj (Ext K) => q.d.ubTmp) hrest :)
  refine ⟨o2, h1, hs2, ho1, hu1, ⟨hr1, ⟨hr1.dims, hm, ?_, ?_, ?_⟩, ?_, ?_, ?_, hS.f0, hS.ans⟩, fun b hb => ?_⟩
  · simpa only [MatIs, hs2, if_true] using hc
  · rw [f2]; exact hS.holds.g
  · rw [f3, f4, f5, f6]; exact hS.holds.low
  · rw [f1]; exact hS.x0
  · rw [ho1]; exact hS.rho0
  · rw [ho1]; exact hS.factor
  · exact ⟨hb.lens, f7.trans hb.lbA, f8.trans hb.ubA, by rw [f9]; exact hb.lb, by rw [f10]; exact hb.ub⟩

end LCQ
