import Verif.Model.Matlab
import Verif.Lemmas.Run
import Verif.Lemmas.Load

/-!
# What loading leaves alone, and what the MATLAB interface loads
-/

namespace LCQ
open Scalar

variable {α : Type} [Scalar α]

theorem thenData_succ {m : M (RV × Data α)} {s : St α} {k : Data α → M (RV × Obj α)} {q : Obj α}
    (h : thenData m s k = .ok (.successfulReturn, q)) : ∃ d, m = .ok (.successfulReturn, d) ∧ k d = .ok (.successfulReturn, q) := by
  rw [thenData, bind_eq_ok] at h
  obtain ⟨r, h1, h2⟩ := h
  obtain ⟨c, d⟩ := r
  by_cases hc : c = .successfulReturn
  · subst hc
    rw [if_neg (by simp)] at h2
    exact ⟨d, h1, h2⟩
  · rw [if_pos hc, failWith] at h2
    injection h2 with h2
    injection h2 with h2
    exact absurd h2 hc

theorem thenSt_succ {m : M (RV × St α)} {d : Data α} {k : St α → M (RV × Obj α)} {q : Obj α}
    (h : thenSt m d k = .ok (.successfulReturn, q)) : ∃ s, m = .ok (.successfulReturn, s) ∧ k s = .ok (.successfulReturn, q) := by
  rw [thenSt, bind_eq_ok] at h
  obtain ⟨r, h1, h2⟩ := h
  obtain ⟨c, d⟩ := r
  by_cases hc : c = .successfulReturn
  · subst hc
    rw [if_neg (by simp)] at h2
    exact ⟨d, h1, h2⟩
  · rw [if_pos hc, failWith] at h2
    injection h2 with h2
    injection h2 with h2
    exact absurd h2 hc

/-- the data members which loading does not touch -/
structure Data.Keep (d d' : Data α) : Prop where
  dims : d'.dims = d.dims
  opts : d'.opts = d.opts

theorem Data.Keep.trans {a b c : Data α} (h : a.Keep b) (g : b.Keep c) : a.Keep c := ⟨g.1.trans h.1, g.2.trans h.2⟩

theorem setQ_keep {d : Data α} {Q : Option (List α)} {r : RV × Data α} (h : setQ d Q = .ok r) : d.Keep r.2 := by
  rw [setQ, bind_eq_ok] at h
  obtain ⟨n, _, h⟩ := h
  split at h
  · injection h with h; rw [← h]; exact ⟨rfl, rfl⟩
  · simp only [bind_eq_ok] at h
    obtain ⟨_, _, _, _, h⟩ := h
    injection h with h; rw [← h]; exact ⟨rfl, rfl⟩

theorem setQs_keep {d : Data α} {Q : Option (CSC α)} {r : RV × Data α} (h : setQs d Q = .ok r) : d.Keep r.2 := by
  rw [setQs, bind_eq_ok] at h
  obtain ⟨n, _, h⟩ := h
  split at h
  · injection h with h; rw [← h]; exact ⟨rfl, rfl⟩
  · simp only [bind_eq_ok] at h
    obtain ⟨_, _, _, _, h⟩ := h
    injection h with h; rw [← h]; exact ⟨rfl, rfl⟩

theorem setG_keep {d : Data α} {g : Option (List α)} {r : RV × Data α} (h : setG d g = .ok r) : d.Keep r.2 := by
  rw [setG, bind_eq_ok] at h
  obtain ⟨n, _, h⟩ := h
  split at h
  · injection h with h; rw [← h]; exact ⟨rfl, rfl⟩
  · split at h
    · injection h with h; rw [← h]; exact ⟨rfl, rfl⟩
    · simp only [bind_eq_ok] at h
      obtain ⟨_, _, h⟩ := h
      injection h with h; rw [← h]; exact ⟨rfl, rfl⟩

theorem setTmp_keep {d d' : Data α} {l u : Option (List α)} (h : setTmp d l u = .ok d') : d.Keep d' := by
  simp only [setTmp, bind_eq_ok] at h
  obtain ⟨_, _, _, _, _, _, h⟩ := h
  injection h with h; rw [← h]; exact ⟨rfl, rfl⟩

theorem setConstraints_keep {e : Env α} {d : Data α} {L R A l u : Option (List α)} {r : RV × Data α}
    (h : setConstraints e d L R A l u = .ok r) : d.Keep r.2 := by
  rw [setConstraints, bind_eq_ok] at h
  obtain ⟨n, _, h⟩ := h
  split at h
  · injection h with h; rw [← h]; exact ⟨rfl, rfl⟩
  split at h
  · injection h with h; rw [← h]; exact ⟨rfl, rfl⟩
  simp only [bind_eq_ok] at h
  obtain ⟨_, _, _, _, _, _, h⟩ := h
  split at h
  · simp only [bind_eq_ok] at h
    obtain ⟨_, _, _, _, _, _, h⟩ := h
    injection h with h; rw [← h]; exact ⟨rfl, rfl⟩
  · injection h with h; rw [← h]; exact ⟨rfl, rfl⟩

theorem setConstraintsSparse_keep {e : Env α} {d : Data α} {L R A : Option (CSC α)} {l u : Option (List α)} {r : RV × Data α}
    (h : setConstraintsSparse e d L R A l u = .ok r) : d.Keep r.2 := by
  simp only [setConstraintsSparse, bind_eq_ok] at h
  obtain ⟨_, _, _, _, _, _, _, _, _, _, _, _, _, _, _, _, C, _, h⟩ := h
  cases C <;> (injection h with h; rw [← h]; exact ⟨rfl, rfl⟩)

theorem setCompBounds_keep {e : Env α} {d : Data α} {a b c f : Option (List α)} {r : RV × Data α}
    (h : setCompBounds e d a b c f = .ok r) : d.Keep r.2 := by
  simp only [setCompBounds, bind_eq_ok] at h
  obtain ⟨_, _, _, _, _, _, r1, _, h⟩ := h
  cases r1 with
  | inr s => injection h with h; rw [← h]; exact ⟨rfl, rfl⟩
  | inl s =>
    simp only [bind_eq_ok] at h
    obtain ⟨r2, _, h⟩ := h
    cases r2 <;> (injection h with h; rw [← h]; exact ⟨rfl, rfl⟩)

theorem setInitialGuess_keep {e : Env α} {d : Data α} {s : St α} {x y : Option (List α)} {r : RV × St α}
    (h : setInitialGuess e d s x y = .ok r) : ∃ u v, r.2 = { s with xk := u, yk := v } := by
  rw [setInitialGuess, bind_eq_ok] at h
  obtain ⟨n, _, h⟩ := h
  split at h
  · injection h with h; rw [← h]; exact ⟨s.xk, s.yk, rfl⟩
  · simp only [bind_eq_ok] at h
    obtain ⟨_, _, _, _, h⟩ := h
    injection h with h; rw [← h]; exact ⟨_, _, rfl⟩

theorem loadDense_keep {e : Env α} {o o' : Obj α} {a : DenseArgs α} (h : loadDense e o a = .ok (.successfulReturn, o')) :
    o.d.Keep o'.d ∧ ∃ u v, o'.s = { o.s with xk := u, yk := v } := by
  rw [loadDense, bind_eq_ok] at h
  obtain ⟨n, _, h⟩ := h
  split at h
  · rw [failWith] at h
    injection h with h
    injection h with h
    cases h
  · obtain ⟨d1, h1, h⟩ := thenData_succ h
    obtain ⟨d2, h2, h⟩ := thenData_succ h
    rw [bind_eq_ok] at h
    obtain ⟨d3, h3, h⟩ := h
    obtain ⟨d4, h4, h⟩ := thenData_succ h
    obtain ⟨d5, h5, h⟩ := thenData_succ h
    obtain ⟨s, h6, h⟩ := thenSt_succ h
    injection h with h
    injection h with _ h
    rw [← h]
    obtain ⟨u, v, h7⟩ := setInitialGuess_keep h6
    refine ⟨?_, u, v, h7⟩
    have k := ((((setQ_keep h1).trans (setG_keep h2)).trans (setTmp_keep h3)).trans (setConstraints_keep h4)).trans (setCompBounds_keep h5)
    exact ⟨k.1, k.2⟩

theorem loadSparse_keep {e : Env α} {o o' : Obj α} {a : SparseArgs α} (h : loadSparse e o a = .ok (.successfulReturn, o')) :
    o.d.Keep o'.d ∧ ∃ u v, o'.s = { o.s with xk := u, yk := v } := by
  rw [loadSparse] at h
  obtain ⟨d1, h1, h⟩ := thenData_succ h
  obtain ⟨d2, h2, h⟩ := thenData_succ h
  obtain ⟨d4, h4, h⟩ := thenData_succ h
  obtain ⟨d5, h5, h⟩ := thenData_succ h
  obtain ⟨s, h6, h⟩ := thenSt_succ h
  rw [bind_eq_ok] at h
  obtain ⟨d3, h3, h⟩ := h
  injection h with h
  injection h with _ h
  rw [← h]
  obtain ⟨u, v, h7⟩ := setInitialGuess_keep h6
  refine ⟨?_, u, v, h7⟩
  have k := ((((setQs_keep h1).trans (setG_keep h2)).trans (setConstraintsSparse_keep h4)).trans (setCompBounds_keep h5)).trans (setTmp_keep h3)
  exact ⟨k.1, k.2⟩

/-! ## computations of the interface -/

@[simp] theorem mx_ok_bind {σ τ : Type} (a : σ) (f : σ → MX τ) : ((Except.ok a : MX σ) >>= f) = f a := rfl

@[simp] theorem mx_error_bind {σ τ : Type} (e : Halt) (f : σ → MX τ) : ((Except.error e : MX σ) >>= f) = Except.error e := rfl

theorem mx_bind_ok {σ τ : Type} {m : MX σ} {f : σ → MX τ} {b : τ} : (m >>= f) = Except.ok b ↔ ∃ a, m = Except.ok a ∧ f a = Except.ok b := by
  cases m <;> simp

@[simp] theorem lift_ok {σ : Type} (a : σ) : lift (Except.ok a : M σ) = .ok a := rfl

@[simp] theorem lift_error {σ : Type} (f : Fault) : lift (Except.error f : M σ) = .error (.fault f) := rfl

theorem lift_eq_ok {σ : Type} {m : M σ} {a : σ} : lift m = .ok a ↔ m = .ok a := by
  cases m <;> simp

theorem code_zero {r : RV} (h : r.code = 0) : r = .successfulReturn := by
  cases r <;> revert h <;> decide

theorem mexDims_pos {prhs : List (Mx α)} {n : Dims} (h : mexDims prhs = .ok n) : n.nV ≠ 0 ∧ n.nComp ≠ 0 := by
  rw [mexDims, mx_bind_ok] at h
  obtain ⟨q, _, h⟩ := h
  split at h
  · cases h
  rename_i hq
  rw [mx_bind_ok] at h
  obtain ⟨l, _, h⟩ := h
  split at h
  · cases h
  rename_i hl
  rw [mx_bind_ok] at h
  obtain ⟨c, _, h⟩ := h
  injection h with h
  rw [← h]
  simp only [Mx.isEmpty, Bool.or_eq_true, beq_iff_eq, Nat.mul_eq_zero, not_or] at hq hl
  exact ⟨hq.1.1, hl.1.1⟩

theorem new_eq (opts : Options α) (n : Dims) (hV : n.nV ≠ 0) (hC : n.nComp ≠ 0) :
    (Obj.new opts n.nV n.nC n.nComp).d.dims = some n ∧ (Obj.new opts n.nV n.nC n.nComp).s.algo = none ∧
    (Obj.new opts n.nV n.nC n.nComp).s.stats = Stats.fresh ∧ (Obj.new opts n.nV n.nC n.nComp).s.yk = none := by
  simp only [Obj.new, if_neg (show ¬ ((n.nV : Int) ≤ 0) by omega), if_neg (show ¬ ((n.nComp : Int) ≤ 0) by omega),
    if_neg (show ¬ ((n.nC : Int) < 0) by omega)]
  exact ⟨by simp, rfl, rfl, rfl⟩

/-- What the interface has before the run: a new object of the sizes of the call, loaded once. -/
theorem mexLoad_inv {E : MexEnv α} {prhs : List (Mx α)} {n : Dims} {p : Options α} {o : Obj α} (h : mexLoad E prhs = .ok (n, p, o)) :
    n.nV ≠ 0 ∧ n.nComp ≠ 0 ∧ o.d.dims = some n ∧ o.d.opts = p ∧ o.s.algo = none ∧ o.s.stats = Stats.fresh := by
  by_cases hl : prhs.length < 8 ∨ 14 < prhs.length
  · rw [mexLoad, if_pos hl] at h
    cases h
  rw [mexLoad, if_neg hl] at h
  simp only [mx_bind_ok] at h
  obtain ⟨n', hn, _, _, q, hq, o', ho, h⟩ := h
  injection h with h
  injection h with h1 h
  injection h with h2 h3
  subst h1 h2 h3
  obtain ⟨hV, hC⟩ := mexDims_pos hn
  obtain ⟨e1, e2, e3, _⟩ := new_eq E.dflt n' hV hC
  refine ⟨hV, hC, ?_⟩
  have key : ∃ r : RV × Obj α, r.1 = .successfulReturn ∧ r.2 = o' ∧
      ((∃ a, loadDense E.e (setOptions (Obj.new E.dflt n'.nV n'.nC n'.nComp) q.opts) a = .ok r) ∨
       (∃ a, loadSparse E.e (setOptions (Obj.new E.dflt n'.nV n'.nC n'.nComp) q.opts) a = .ok r)) := by
    rw [mexData, mx_bind_ok] at ho
    obtain ⟨b, _, ho⟩ := ho
    split at ho
    · rw [mexSparse, mx_bind_ok] at ho
      obtain ⟨s, _, ho⟩ := ho
      split at ho
      · cases ho
      simp only [mx_bind_ok, lift_eq_ok] at ho
      obtain ⟨a, _, r, hr, ho⟩ := ho
      split at ho
      · cases ho
      · rename_i hc
        injection ho with ho
        exact ⟨r, code_zero (by simpa using hc), ho, .inr ⟨a, hr⟩⟩
    · simp only [mexDense, mx_bind_ok, lift_eq_ok] at ho
      obtain ⟨a, _, r, hr, ho⟩ := ho
      split at ho
      · cases ho
      · rename_i hc
        injection ho with ho
        exact ⟨r, by simpa using hc, ho, .inl ⟨a, hr⟩⟩
  obtain ⟨⟨c, oo⟩, hc, rfl, hl⟩ := key
  simp only at hc
  subst hc
  have k : (setOptions (Obj.new E.dflt n'.nV n'.nC n'.nComp) q.opts).d.Keep oo.d ∧
      ∃ u v, oo.s = { (setOptions (Obj.new E.dflt n'.nV n'.nC n'.nComp) q.opts).s with xk := u, yk := v } := by
    rcases hl with ⟨a, hl⟩ | ⟨a, hl⟩
    · exact loadDense_keep hl
    · exact loadSparse_keep hl
  obtain ⟨⟨k1, k2⟩, u, v, k3⟩ := k
  refine ⟨k1.trans e1, k2, ?_, ?_⟩
  · rw [k3]; exact e2
  · rw [k3]; exact e3

end LCQ
