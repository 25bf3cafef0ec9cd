import Verif.Lemmas.SetBound
import Verif.Props.Examples

/-!
# C92: setting a single bound has no effect on a run

`setLB( int, double )` and `setUB( int, double )` change one entry of the box constraints `lb`, `ub`.  These arrays are created only by
`initializeSolver`, from the constraints kept in `lb_tmp`, `ub_tmp` by the load; so before the first run the setters dereference a null
pointer, and a later run overwrites what they have set, or is refused if OSQP is selected.
-/

namespace LCQ
open Scalar

variable {α : Type} [Scalar α]

/-- C92: what a setter does: nothing but the code if there are no variables or if the index is out of range; otherwise it changes
exactly one entry of an existing array, and dereferences the null pointer if there is no array. -/
theorem C92_set {o : Obj α} {n : Dims} (hn : o.d.dims = some n) (k : Int) (v : α) :
    (n.nV = 0 → setLBAt o k v = .ok (.lcqpobjectNotSetup, o) ∧ setUBAt o k v = .ok (.lcqpobjectNotSetup, o)) ∧
    (n.nV ≠ 0 → ¬ (0 ≤ k ∧ k < n.nV) →
      setLBAt o k v = .ok (.indexOutOfBounds, o) ∧ setUBAt o k v = .ok (.indexOutOfBounds, o)) ∧
    (0 ≤ k → k < n.nV →
      (o.d.lb = none → setLBAt o k v = .error .null) ∧ (o.d.ub = none → setUBAt o k v = .error .null) ∧
      (∀ l, o.d.lb = some l → l.length = n.nV → ∃ l', setLBAt o k v = .ok (.successfulReturn, o.withBox (some l') o.d.ub) ∧
        l'.length = n.nV ∧ l'[k.toNat]? = some v ∧ ∀ i, i ≠ k.toNat → l'[i]? = l[i]?) ∧
      (∀ u, o.d.ub = some u → u.length = n.nV → ∃ u', setUBAt o k v = .ok (.successfulReturn, o.withBox o.d.lb (some u')) ∧
        u'.length = n.nV ∧ u'[k.toNat]? = some v ∧ ∀ i, i ≠ k.toNat → u'[i]? = u[i]?)) := by
  have e0 : ∀ b, n.nV = 0 → setBoundAt o.d b k v = .ok (.lcqpobjectNotSetup, b) := by
    intro b h0
    simp only [setBoundAt, hn, initd_some, ok_bind, if_pos h0]
  have e1 : ∀ b, n.nV ≠ 0 → ¬ (0 ≤ k ∧ k < n.nV) → setBoundAt o.d b k v = .ok (.indexOutOfBounds, b) := by
    intro b h0 hk
    simp only [setBoundAt, hn, initd_some, ok_bind, if_neg h0, if_neg hk]
  have e2 : 0 ≤ k → k < n.nV → setBoundAt o.d none k v = .error .null := by
    intro h1 h2
    simp only [setBoundAt, hn, initd_some, ok_bind, if_neg (show ¬ n.nV = 0 by omega), if_pos (And.intro h1 h2)]
    rfl
  have e3 : ∀ l : List α, 0 ≤ k → k < n.nV → l.length = n.nV →
      setBoundAt o.d (some l) k v = .ok (.successfulReturn, some (l.set k.toNat v)) := by
    intro l h1 h2 ll
    simp only [setBoundAt, hn, initd_some, deref_some, ok_bind, if_neg (show ¬ n.nV = 0 by omega), if_pos (And.intro h1 h2),
      wrI, wr, if_pos h1, if_pos (show k.toNat < l.length by omega)]
  refine ⟨fun h0 => ?_, fun h0 hk => ?_, fun h1 h2 => ⟨fun h => ?_, fun h => ?_, fun l hl ll => ?_, fun l hl ll => ?_⟩⟩
  · simp only [setLBAt, setUBAt, e0 _ h0, ok_bind, and_self]
  · simp only [setLBAt, setUBAt, e1 _ h0 hk, ok_bind, and_self]
  · rw [setLBAt, h, e2 h1 h2]; rfl
  · rw [setUBAt, h, e2 h1 h2]; rfl
  · have hk : k.toNat < l.length := by omega
    refine ⟨l.set k.toNat v, ?_, by simp [ll], by simp [hk], fun i hi => by simp [List.getElem?_set, hi.symm]⟩
    rw [setLBAt, hl, e3 l h1 h2 ll]; rfl
  · have hk : k.toNat < l.length := by omega
    refine ⟨l.set k.toNat v, ?_, by simp [ll], by simp [hk], fun i hi => by simp [List.getElem?_set, hi.symm]⟩
    rw [setUBAt, hl, e3 l h1 h2 ll]; rfl

/-- C92: between construction and the first run there is no array to be changed: after any load into a new object each setter
dereferences the null pointer for each index in range, whether or not the load has given bounds. -/
theorem C92_first {e : Env α} {op : Options α} {nV nC nComp : Int} (hn : 1 ≤ nV ∧ 1 ≤ nComp ∧ 0 ≤ nC) {o : Obj α} {rv : RV}
    (h : (∃ a, loadDense e (Obj.new op nV nC nComp) a = .ok (rv, o)) ∨ (∃ a, loadSparse e (Obj.new op nV nC nComp) a = .ok (rv, o)))
    {k : Int} (h1 : 0 ≤ k) (h2 : k < nV) (v : α) : setLBAt o k v = .error .null ∧ setUBAt o k v = .error .null := by
  have h0 : (Obj.new op nV nC nComp).d.lb = none ∧ (Obj.new op nV nC nComp).d.ub = none ∧
      (Obj.new op nV nC nComp).d.dims = some ⟨nV.toNat, nC.toNat, nComp.toNat⟩ := by
    unfold Obj.new
    dsimp only
    rw [if_neg (by omega), if_neg (by omega), if_neg (by omega)]
    exact ⟨rfl, rfl, rfl⟩
  have hb : o.d.lb = none ∧ o.d.ub = none ∧ o.d.dims = some ⟨nV.toNat, nC.toNat, nComp.toNat⟩ := by
    rcases h with ⟨a, h⟩ | ⟨a, h⟩
    · exact ⟨(loadDense_box h).1.trans h0.1, (loadDense_box h).2.trans h0.2.1, (loadDense_loads h).1.1.trans h0.2.2⟩
    · exact ⟨(loadSparse_box h).1.trans h0.1, (loadSparse_box h).2.trans h0.2.1, (loadSparse_loads h).1.1.trans h0.2.2⟩
  have := (C92_set hb.2.2 k v).2.2 h1 (by dsimp only; omega)
  exact ⟨this.1 hb.1, this.2.1 hb.2.1⟩

/-- C92: with qpOASES the bounds present before a run do not matter: whatever they are, an object that can be initialised runs in the
same way and ends in the same state. -/
theorem C92_run {e : Env α} {o : Obj α} {i : RV × Obj α} (hq : o.d.opts.qpSolver = 0 ∨ o.d.opts.qpSolver = 1)
    (hi : initializeSolver e o = .ok i) (h1 : i.1 = .successfulReturn) (l u : Option (List α)) (fuel : Nat) :
    runSolver e fuel (o.withBox l u) = runSolver e fuel o := by
  simp only [runSolver, hi, initializeSolver_over hq hi h1]

/-- C92: with OSQP, which does not support box constraints, a run of an object with bounds is refused. -/
theorem C92_osqp {e : Env α} {o : Obj α} {n : Dims} (hn : o.d.dims = some n) (hq : o.d.opts.qpSolver = 2)
    (hb : o.d.lb ≠ none ∨ o.d.ub ≠ none) (fuel : Nat) :
    ∃ o', runSolver e fuel o = .ok (some (.invalidOsqpBoxConstraints, o')) := by
  have hi : initializeSolver e o = .ok (.invalidOsqpBoxConstraints, o) := by
    simp only [initializeSolver, chooseSolver, hn, initd_some, ok_bind, if_neg (show ¬ o.d.opts.qpSolver = 0 by rw [hq]; decide),
      if_neg (show ¬ o.d.opts.qpSolver = 1 by rw [hq]; decide), if_pos hq, if_pos hb]
    rfl
  simp only [runSolver, hi, ok_bind]
  exact ⟨_, rfl⟩

/-- C92: hence a successful call of a setter never influences a run: with qpOASES the run is that of the object without the call, and
with OSQP the run is refused. -/
theorem C92_useless {e : Env α} {o o1 : Obj α} {k : Int} {v : α}
    (h : setLBAt o k v = .ok (.successfulReturn, o1) ∨ setUBAt o k v = .ok (.successfulReturn, o1)) :
    ((o.d.opts.qpSolver = 0 ∨ o.d.opts.qpSolver = 1) → ∀ i, initializeSolver e o = .ok i → i.1 = .successfulReturn → ∀ fuel,
      runSolver e fuel o1 = runSolver e fuel o) ∧
    (o.d.opts.qpSolver = 2 → ∀ fuel, ∃ o', runSolver e fuel o1 = .ok (some (.invalidOsqpBoxConstraints, o'))) := by
  have key : ∃ n l u, o.d.dims = some n ∧ o1 = o.withBox l u ∧ (l ≠ none ∨ u ≠ none) := by
    rcases h with h | h <;>
    · simp only [setLBAt, setUBAt, setBoundAt, bind_eq_ok, initd_eq_ok] at h
      obtain ⟨r, ⟨n, hn, hr⟩, h⟩ := h
      injection h with h
      injection h with hc ho
      split at hr
      · injection hr with hr
        rw [← hr] at hc
        cases hc
      · split at hr
        · simp only [bind_eq_ok] at hr
          obtain ⟨_, _, w, _, hr⟩ := hr
          injection hr with hr
          rw [← hr] at ho
          exact ⟨n, _, _, hn, ho.symm, by simp⟩
        · injection hr with hr
          rw [← hr] at hc
          cases hc
  obtain ⟨n, l, u, hn, rfl, hb⟩ := key
  exact ⟨fun hq i hi h1 fuel => C92_run hq hi h1 l u fuel, fun hq fuel => C92_osqp (o := o.withBox l u) (n := n) hn hq hb fuel⟩

/-- after a run with qpOASES a bound can be set -/
example : (do
    let r ← loadDense Ex.envPen Ex.obj0 Ex.args
    let q ← runSolver Ex.envPen 1001 r.2
    match q with
    | some q => do
      let w ← setLBAt q.2 1 (.fin 7)
      .ok (w.1, w.2.d.lb)
    | none => .error .abort : M (RV × Option (List (Ext ℚ)))) = .ok (.successfulReturn, some [.ninf, .fin 7]) := by
  decide +kernel

/-- and before it is a null pointer dereference -/
example : (do
    let r ← loadDense Ex.envPen Ex.obj0 Ex.args
    let w ← setLBAt r.2 1 (.fin 7)
    .ok w.1 : M RV) = .error .null := by
  decide +kernel

end LCQ
