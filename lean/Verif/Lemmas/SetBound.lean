import Verif.Model.SetBound
import Verif.Lemmas.PythonBind

/-!
# Box constraints stored in an object (lemmas)
-/

namespace LCQ
open Scalar

variable {α : Type} [Scalar α]

/-- the box constraints given to the QP solver are the same -/
def Data.SameBox (d d' : Data α) : Prop := d'.lb = d.lb ∧ d'.ub = d.ub

theorem setQ_box {d : Data α} {Q : Option (List α)} {r : RV × Data α} (h : setQ d Q = .ok r) : d.SameBox r.2 := by
  rw [setQ, bind_eq_ok] at h
  obtain ⟨n, _, h⟩ := h
  split at h
  · injection h with h; rw [← h]; exact ⟨rfl, rfl⟩
  · simp only [bind_eq_ok] at h
    obtain ⟨_, _, _, _, h⟩ := h
    injection h with h; rw [← h]; exact ⟨rfl, rfl⟩

theorem setQs_box {d : Data α} {Q : Option (CSC α)} {r : RV × Data α} (h : setQs d Q = .ok r) : d.SameBox r.2 := by
  rw [setQs, bind_eq_ok] at h
  obtain ⟨n, _, h⟩ := h
  split at h
  · injection h with h; rw [← h]; exact ⟨rfl, rfl⟩
  · simp only [bind_eq_ok] at h
    obtain ⟨_, _, _, _, h⟩ := h
    injection h with h; rw [← h]; exact ⟨rfl, rfl⟩

theorem setG_box {d : Data α} {g : Option (List α)} {r : RV × Data α} (h : setG d g = .ok r) : d.SameBox r.2 := by
  rw [setG, bind_eq_ok] at h
  obtain ⟨n, _, h⟩ := h
  split at h
  · injection h with h; rw [← h]; exact ⟨rfl, rfl⟩
  · split at h
    · injection h with h; rw [← h]; exact ⟨rfl, rfl⟩
    · simp only [bind_eq_ok] at h
      obtain ⟨_, _, h⟩ := h
      injection h with h; rw [← h]; exact ⟨rfl, rfl⟩

theorem setTmp_box {d d' : Data α} {l u : Option (List α)} (h : setTmp d l u = .ok d') : d.SameBox d' := by
  simp only [setTmp, bind_eq_ok] at h
  obtain ⟨_, _, _, _, _, _, h⟩ := h
  injection h with h; rw [← h]; exact ⟨rfl, rfl⟩

theorem setConstraints_box {e : Env α} {d : Data α} {L R A l u : Option (List α)} {r : RV × Data α}
    (h : setConstraints e d L R A l u = .ok r) : d.SameBox r.2 := by
  rw [setConstraints, bind_eq_ok] at h
  obtain ⟨n, _, h⟩ := h
  split at h
  · injection h with h; rw [← h]; exact ⟨rfl, rfl⟩
  split at h
  · injection h with h; rw [← h]; exact ⟨rfl, rfl⟩
  simp only [bind_eq_ok] at h
  obtain ⟨_, _, _, _, _, _, h⟩ := h
  split at h
  · simp only [bind_eq_ok] at h
    obtain ⟨_, _, _, _, _, _, h⟩ := h
    injection h with h; rw [← h]; exact ⟨rfl, rfl⟩
  · injection h with h; rw [← h]; exact ⟨rfl, rfl⟩

theorem setConstraintsSparse_box {e : Env α} {d : Data α} {L R A : Option (CSC α)} {l u : Option (List α)} {r : RV × Data α}
    (h : setConstraintsSparse e d L R A l u = .ok r) : d.SameBox r.2 := by
  simp only [setConstraintsSparse, bind_eq_ok] at h
  obtain ⟨_, _, _, _, _, _, _, _, _, _, _, _, _, _, _, _, C, _, h⟩ := h
  cases C <;> (injection h with h; rw [← h]; exact ⟨rfl, rfl⟩)

theorem setCompBounds_box {e : Env α} {d : Data α} {a b c f : Option (List α)} {r : RV × Data α}
    (h : setCompBounds e d a b c f = .ok r) : d.SameBox r.2 := by
  simp only [setCompBounds, bind_eq_ok] at h
  obtain ⟨_, _, _, _, _, _, r1, _, h⟩ := h
  cases r1 with
  | inr s => injection h with h; rw [← h]; exact ⟨rfl, rfl⟩
  | inl s =>
    simp only [bind_eq_ok] at h
    obtain ⟨r2, _, h⟩ := h
    cases r2 <;> (injection h with h; rw [← h]; exact ⟨rfl, rfl⟩)

theorem Data.SameBox.trans {a b c : Data α} (h : a.SameBox b) (g : b.SameBox c) : a.SameBox c :=
  ⟨g.1.trans h.1, g.2.trans h.2⟩

theorem thenData_box {d : Data α} {m : M (RV × Data α)} {s : St α} {k : Data α → M (RV × Obj α)} {r : RV × Obj α}
    (h : thenData m s k = .ok r) (hm : ∀ q, m = .ok q → d.SameBox q.2) (hk : ∀ d', k d' = .ok r → d'.SameBox r.2.d) :
    d.SameBox r.2.d := by
  rw [thenData, bind_eq_ok] at h
  obtain ⟨q, h1, h2⟩ := h
  have hs := hm q h1
  split at h2
  · rw [failWith] at h2
    injection h2 with h2
    rw [← h2]
    exact hs
  · exact hs.trans (hk _ h2)

theorem thenSt_box {d : Data α} {m : M (RV × St α)} {k : St α → M (RV × Obj α)} {r : RV × Obj α}
    (h : thenSt m d k = .ok r) (hk : ∀ s, k s = .ok r → d.SameBox r.2.d) : d.SameBox r.2.d := by
  rw [thenSt, bind_eq_ok] at h
  obtain ⟨q, h1, h2⟩ := h
  split at h2
  · rw [failWith] at h2
    injection h2 with h2
    rw [← h2]
    exact ⟨rfl, rfl⟩
  · exact hk _ h2

theorem loadDense_box {e : Env α} {o : Obj α} {a : DenseArgs α} {r : RV × Obj α} (h : loadDense e o a = .ok r) :
    o.d.SameBox r.2.d := by
  rw [loadDense, bind_eq_ok] at h
  obtain ⟨n, _, h⟩ := h
  split at h
  · rw [failWith] at h
    injection h with h
    rw [← h]
    exact ⟨rfl, rfl⟩
  refine thenData_box h (fun q => setQ_box) fun d1 h => ?_
  refine thenData_box h (fun q => setG_box) fun d2 h => ?_
  rw [bind_eq_ok] at h
  obtain ⟨d3, h3, h⟩ := h
  refine (setTmp_box h3).trans ?_
  refine thenData_box h (fun q => setConstraints_box) fun d4 h => ?_
  refine thenData_box h (fun q => setCompBounds_box) fun d5 h => ?_
  refine thenSt_box h fun s h => ?_
  injection h with h
  rw [← h]
  exact ⟨rfl, rfl⟩

theorem loadSparse_box {e : Env α} {o : Obj α} {a : SparseArgs α} {r : RV × Obj α} (h : loadSparse e o a = .ok r) :
    o.d.SameBox r.2.d := by
  rw [loadSparse] at h
  refine thenData_box h (fun q => setQs_box) fun d1 h => ?_
  refine thenData_box h (fun q => setG_box) fun d2 h => ?_
  refine thenData_box h (fun q => setConstraintsSparse_box) fun d4 h => ?_
  refine thenData_box h (fun q => setCompBounds_box) fun d5 h => ?_
  refine thenSt_box h fun s h => ?_
  rw [bind_eq_ok] at h
  obtain ⟨d3, h3, h⟩ := h
  refine (setTmp_box h3).trans ?_
  injection h with h
  rw [← h]
  exact ⟨rfl, rfl⟩

/-- the same object with other box constraints -/
def Obj.withBox (o : Obj α) (l u : Option (List α)) : Obj α := { o with d := { o.d with lb := l, ub := u } }

/-- `setBoxes` overwrites both bounds -/
theorem setBoxes_over {d : Data α} {l u : Option (List α)} {b : RV × Data α} (h : setBoxes d = .ok b)
    (hb : b.1 = .successfulReturn) : setBoxes { d with lb := l, ub := u } = .ok b := by
  have hd : ∀ v df, setBox { d with lb := l, ub := u } v df = setBox d v df := fun _ _ => rfl
  simp only [setBoxes, hd, bind_eq_ok] at h ⊢
  obtain ⟨p, hp, h⟩ := h
  refine ⟨p, hp, ?_⟩
  split at h
  · rename_i hne
    injection h with h
    rw [← h] at hb
    exact absurd hb hne
  · simp only [bind_eq_ok] at h
    obtain ⟨q, hq, h⟩ := h
    rename_i hne
    rw [if_neg hne, bind_eq_ok]
    refine ⟨q, hq, ?_⟩
    split at h
    · rename_i hne
      injection h with h
      rw [← h] at hb
      exact absurd hb hne
    · rename_i hne
      rw [if_neg hne]
      injection h with h
      rw [← h]

theorem chooseSolver_over {e : Env α} {o : Obj α} {l u : Option (List α)} {c : RV × Obj α}
    (hq : o.d.opts.qpSolver = 0 ∨ o.d.opts.qpSolver = 1) (h : chooseSolver e o = .ok c) (hc : c.1 = .successfulReturn) :
    chooseSolver e (o.withBox l u) = .ok c := by
  simp only [chooseSolver, bind_eq_ok] at h ⊢
  obtain ⟨n, hn, h⟩ := h
  refine ⟨n, hn, ?_⟩
  rcases hq with hq | hq
  · have hq' : (o.withBox l u).d.opts.qpSolver = 0 := hq
    rw [if_pos hq] at h
    rw [if_pos hq']
    split at h
    · injection h with h
      rw [← h] at hc
      cases hc
    · rename_i hs
      have hs' : ¬ (o.withBox l u).d.sparse = true := hs
      rw [if_neg hs']
      simp only [bind_eq_ok] at h ⊢
      obtain ⟨b, hb, h⟩ := h
      split at h
      · rename_i hne
        injection h with h
        rw [← h] at hc
        exact absurd hc hne
      · rename_i hne
        have hb1 : b.1 = .successfulReturn := by simpa using hne
        refine ⟨b, setBoxes_over (l := l) (u := u) hb hb1, ?_⟩
        rw [if_neg hne]
        exact h
  · have hq' : (o.withBox l u).d.opts.qpSolver = 1 := hq
    have h0 : ¬ o.d.opts.qpSolver = 0 := by rw [hq]; decide
    have h0' : ¬ (o.withBox l u).d.opts.qpSolver = 0 := h0
    rw [if_neg h0, if_pos hq] at h
    rw [if_neg h0', if_pos hq']
    split at h
    · injection h with h
      rw [← h] at hc
      cases hc
    · rename_i hs
      have hs' : ¬ (!(o.withBox l u).d.sparse) = true := hs
      rw [if_neg hs']
      simp only [bind_eq_ok] at h ⊢
      obtain ⟨b, hb, h⟩ := h
      split at h
      · rename_i hne
        injection h with h
        rw [← h] at hc
        exact absurd hc hne
      · rename_i hne
        have hb1 : b.1 = .successfulReturn := by simpa using hne
        refine ⟨b, setBoxes_over (l := l) (u := u) hb hb1, ?_⟩
        rw [if_neg hne]
        exact h

theorem initializeSolver_over {e : Env α} {o : Obj α} {l u : Option (List α)} {i : RV × Obj α}
    (hq : o.d.opts.qpSolver = 0 ∨ o.d.opts.qpSolver = 1) (h : initializeSolver e o = .ok i) (hi : i.1 = .successfulReturn) :
    initializeSolver e (o.withBox l u) = .ok i := by
  simp only [initializeSolver, bind_eq_ok] at h ⊢
  obtain ⟨c, hc, h⟩ := h
  split at h
  · rename_i hne
    injection h with h
    rw [h] at hne
    exact absurd hi hne
  · rename_i hne
    have hc1 : c.1 = .successfulReturn := by simpa using hne
    exact ⟨c, chooseSolver_over hq hc hc1, by rw [if_neg hne]; exact h⟩

end LCQ
