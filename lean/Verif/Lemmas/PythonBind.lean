import Verif.Model.PythonBind
import Verif.Lemmas.Interfaces
import Verif.Props.Options

/-!
# What calls of the Python interface change
-/

namespace LCQ
open Scalar

variable {α : Type} [Scalar α]

/-- sizes, options and mode are the same -/
structure Data.Same (d d' : Data α) : Prop where
  dims : d'.dims = d.dims
  opts : d'.opts = d.opts
  sparse : d'.sparse = d.sparse

theorem Data.Same.refl (d : Data α) : d.Same d := ⟨rfl, rfl, rfl⟩

theorem Data.Same.trans {a b c : Data α} (h : a.Same b) (g : b.Same c) : a.Same c :=
  ⟨g.1.trans h.1, g.2.trans h.2, g.3.trans h.3⟩

theorem setQ_same {d : Data α} {Q : Option (List α)} {r : RV × Data α} (h : setQ d Q = .ok r) : d.Same r.2 := by
  refine ⟨(setQ_keep h).1, (setQ_keep h).2, ?_⟩
  rw [setQ, bind_eq_ok] at h
  obtain ⟨n, _, h⟩ := h
  split at h
  · injection h with h; rw [← h]
  · simp only [bind_eq_ok] at h
    obtain ⟨_, _, _, _, h⟩ := h
    injection h with h; rw [← h]

theorem setQs_same {d : Data α} {Q : Option (CSC α)} {r : RV × Data α} (h : setQs d Q = .ok r) : d.Same r.2 := by
  refine ⟨(setQs_keep h).1, (setQs_keep h).2, ?_⟩
  rw [setQs, bind_eq_ok] at h
  obtain ⟨n, _, h⟩ := h
  split at h
  · injection h with h; rw [← h]
  · simp only [bind_eq_ok] at h
    obtain ⟨_, _, _, _, h⟩ := h
    injection h with h; rw [← h]

theorem setG_same {d : Data α} {g : Option (List α)} {r : RV × Data α} (h : setG d g = .ok r) : d.Same r.2 := by
  refine ⟨(setG_keep h).1, (setG_keep h).2, ?_⟩
  rw [setG, bind_eq_ok] at h
  obtain ⟨n, _, h⟩ := h
  split at h
  · injection h with h; rw [← h]
  · split at h
    · injection h with h; rw [← h]
    · simp only [bind_eq_ok] at h
      obtain ⟨_, _, h⟩ := h
      injection h with h; rw [← h]

theorem setTmp_same {d d' : Data α} {l u : Option (List α)} (h : setTmp d l u = .ok d') : d.Same d' := by
  refine ⟨(setTmp_keep h).1, (setTmp_keep h).2, ?_⟩
  simp only [setTmp, bind_eq_ok] at h
  obtain ⟨_, _, _, _, _, _, h⟩ := h
  injection h with h; rw [← h]

theorem setConstraints_same {e : Env α} {d : Data α} {L R A l u : Option (List α)} {r : RV × Data α}
    (h : setConstraints e d L R A l u = .ok r) : d.Same r.2 := by
  refine ⟨(setConstraints_keep h).1, (setConstraints_keep h).2, ?_⟩
  rw [setConstraints, bind_eq_ok] at h
  obtain ⟨n, _, h⟩ := h
  split at h
  · injection h with h; rw [← h]
  split at h
  · injection h with h; rw [← h]
  simp only [bind_eq_ok] at h
  obtain ⟨_, _, _, _, _, _, h⟩ := h
  split at h
  · simp only [bind_eq_ok] at h
    obtain ⟨_, _, _, _, _, _, h⟩ := h
    injection h with h; rw [← h]
  · injection h with h; rw [← h]

theorem setConstraintsSparse_same {e : Env α} {d : Data α} {L R A : Option (CSC α)} {l u : Option (List α)} {r : RV × Data α}
    (h : setConstraintsSparse e d L R A l u = .ok r) : d.Same r.2 := by
  refine ⟨(setConstraintsSparse_keep h).1, (setConstraintsSparse_keep h).2, ?_⟩
  simp only [setConstraintsSparse, bind_eq_ok] at h
  obtain ⟨_, _, _, _, _, _, _, _, _, _, _, _, _, _, _, _, C, _, h⟩ := h
  cases C <;> (injection h with h; rw [← h])

theorem setCompBounds_same {e : Env α} {d : Data α} {a b c f : Option (List α)} {r : RV × Data α}
    (h : setCompBounds e d a b c f = .ok r) : d.Same r.2 := by
  refine ⟨(setCompBounds_keep h).1, (setCompBounds_keep h).2, ?_⟩
  simp only [setCompBounds, bind_eq_ok] at h
  obtain ⟨_, _, _, _, _, _, r1, _, h⟩ := h
  cases r1 with
  | inr s => injection h with h; rw [← h]
  | inl s =>
    simp only [bind_eq_ok] at h
    obtain ⟨r2, _, h⟩ := h
    cases r2 <;> (injection h with h; rw [← h])

/-- the outcome of a load into an object with data `d`: accepted with mode `b`, or refused with the old mode -/
def Data.Loads (d : Data α) (b : Bool) (r : RV × Obj α) : Prop :=
  d.Keep r.2.d ∧ r.2.d.sparse = if r.1 = .successfulReturn then b else d.sparse

theorem Data.Loads.of_same {d d' : Data α} {b : Bool} {r : RV × Obj α} (h : d'.Loads b r) (g : d.Same d') : d.Loads b r :=
  ⟨⟨h.1.1.trans g.1, h.1.2.trans g.2⟩, by rw [h.2, g.3]⟩

theorem thenData_loads {d : Data α} {b : Bool} {m : M (RV × Data α)} {s : St α} {k : Data α → M (RV × Obj α)} {r : RV × Obj α}
    (h : thenData m s k = .ok r) (hm : ∀ q, m = .ok q → d.Same q.2) (hk : ∀ d', d.Same d' → k d' = .ok r → d'.Loads b r) :
    d.Loads b r := by
  rw [thenData, bind_eq_ok] at h
  obtain ⟨q, h1, h2⟩ := h
  have hs := hm q h1
  split at h2
  · rename_i hc
    rw [failWith] at h2
    injection h2 with h2
    rw [← h2]
    exact ⟨⟨hs.1, hs.2⟩, by simp only [if_neg hc]; exact hs.3⟩
  · exact (hk _ hs h2).of_same hs

theorem thenSt_loads {d : Data α} {b : Bool} {m : M (RV × St α)} {k : St α → M (RV × Obj α)} {r : RV × Obj α}
    (h : thenSt m d k = .ok r) (hk : ∀ s, k s = .ok r → d.Loads b r) : d.Loads b r := by
  rw [thenSt, bind_eq_ok] at h
  obtain ⟨q, h1, h2⟩ := h
  split at h2
  · rename_i hc
    rw [failWith] at h2
    injection h2 with h2
    rw [← h2]
    exact ⟨⟨rfl, rfl⟩, by simp only [if_neg hc]⟩
  · exact hk _ h2

theorem loadRead_loads {e : Env α} {o : Obj α} {a : DenseArgs α} {r : RV × Obj α} (h : loadRead e o a = .ok r) : o.d.Loads false r := by
  rw [loadRead] at h
  refine thenData_loads h (fun q => setQ_same) fun d1 _ h => ?_
  refine thenData_loads h (fun q => setG_same) fun d2 _ h => ?_
  rw [bind_eq_ok] at h
  obtain ⟨d3, h3, h⟩ := h
  refine Data.Loads.of_same ?_ (setTmp_same h3)
  refine thenData_loads h (fun q => setConstraints_same) fun d4 _ h => ?_
  refine thenData_loads h (fun q => setCompBounds_same) fun d5 _ h => ?_
  refine thenSt_loads h fun s h => ?_
  injection h with h
  rw [← h]
  exact ⟨⟨rfl, rfl⟩, rfl⟩

theorem loadDense_loads {e : Env α} {o : Obj α} {a : DenseArgs α} {r : RV × Obj α} (h : loadDense e o a = .ok r) : o.d.Loads false r := by
  rw [loadDense, bind_eq_ok] at h
  obtain ⟨n, _, h⟩ := h
  split at h
  · rw [failWith] at h
    injection h with h
    rw [← h]
    exact ⟨⟨rfl, rfl⟩, rfl⟩
  · exact loadRead_loads (a := a) h

theorem loadSparse_loads {e : Env α} {o : Obj α} {a : SparseArgs α} {r : RV × Obj α} (h : loadSparse e o a = .ok r) :
    o.d.Loads true r := by
  rw [loadSparse] at h
  refine thenData_loads h (fun q => setQs_same) fun d1 _ h => ?_
  refine thenData_loads h (fun q => setG_same) fun d2 _ h => ?_
  refine thenData_loads h (fun q => setConstraintsSparse_same) fun d4 _ h => ?_
  refine thenData_loads h (fun q => setCompBounds_same) fun d5 _ h => ?_
  refine thenSt_loads h fun s h => ?_
  rw [bind_eq_ok] at h
  obtain ⟨d3, h3, h⟩ := h
  refine Data.Loads.of_same ?_ (setTmp_same h3)
  injection h with h
  rw [← h]
  exact ⟨⟨rfl, rfl⟩, rfl⟩

theorem thenRead_loads {b : Bool} {τ : Type} {m : M (RV × τ)} {o : Obj α} {k : τ → M (RV × Obj α)} {r : RV × Obj α}
    (h : thenRead m o k = .ok r) (hk : ∀ t, k t = .ok r → o.d.Loads b r) : o.d.Loads b r := by
  rw [thenRead, bind_eq_ok] at h
  obtain ⟨q, h1, h2⟩ := h
  split at h2
  · rename_i hc
    rw [failWith] at h2
    injection h2 with h2
    rw [← h2]
    exact ⟨⟨rfl, rfl⟩, by simp only [if_neg hc]⟩
  · exact hk _ h2

theorem loadFiles_loads {e : Env α} {o : Obj α} {a : FileArgs α} {r : RV × Obj α} (h : loadFiles e o a = .ok r) : o.d.Loads false r := by
  rw [loadFiles, bind_eq_ok] at h
  obtain ⟨n, _, h⟩ := h
  iterate 15 (refine thenRead_loads h fun _ h => ?_)
  exact loadRead_loads h

theorem runSolver_same {e : Env α} {fuel : Nat} {o : Obj α} {r : RV × Obj α} (h : runSolver e fuel o = .ok (some r)) :
    o.d.Same r.2.d := by
  obtain ⟨i, hi, hx⟩ := runSolver_inv h
  have key : o.d.Same i.2.d := by
    by_cases hr : i.1 = .successfulReturn
    · obtain ⟨nd, bo, l, u, sub, y, w, gt, pc, gp, h⟩ := initializeSolver_ok hi hr
      rw [h]; exact ⟨rfl, rfl, rfl⟩
    · obtain ⟨nd, bo, l, u, sub, y, w, h⟩ := chooseSolver_inv (initializeSolver_fail hi hr).1
      rw [h]; exact ⟨rfl, rfl, rfl⟩
  rcases hx with ⟨_, rfl⟩ | ⟨_, hd, _⟩
  · exact key
  · rw [hd]; exact key

/-- a setter with a Python method does not change `perturbStep` or the options of the QP solvers -/
theorem pySetter_hidden {name : String} {a : PyArg α} {c : Options.Call α} (h : pySetter name a = some c) (o : Options α) :
    (o.call c).2.perturb = o.perturb ∧ (o.call c).2.qpoases = o.qpoases ∧ (o.call c).2.osqp = o.osqp := by
  rw [pySetter] at h
  obtain ⟨f, hf, h⟩ := List.exists_of_findSome?_eq_some h
  simp only [pyBound, List.mem_map, List.mem_filter] at hf
  obtain ⟨v, ⟨hv, _⟩, rfl⟩ := hf
  have hne := (by decide : ∀ v ∈ pyOptions, v.2 ≠ .setPerturb) v hv
  generalize v.2 = f at h hne
  cases f <;> cases a <;> simp only [OptFn.call, reduceCtorEq, Option.some.injEq, ne_eq, not_true_eq_false] at h hne <;> subst h <;>
    simp only [Options.call, Options.setStatTol, Options.setComplTol, Options.setRho0,
      Options.setFactor, Options.setZeroFirst, Options.setMaxIter,
      Options.setMaxRho, Options.setNDyn, Options.setEta, Options.setPrintLevel,
      Options.setPrintLevelEnum, Options.setStoreSteps, Options.setQPSolver, Options.setQPSolverEnum] <;>
    (try split) <;> simp

end LCQ
