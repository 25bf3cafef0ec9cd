import Verif.Lemmas.Load
import Verif.Props.Dense
import Verif.Props.Examples

/-!
# C14, C15, C39: constructor and dense load
-/

set_option linter.unusedSectionVars false

namespace LCQ
open Scalar Ext
open scoped Matrix

section anyArith
variable {α : Type} [Scalar α]

/-- "`o` holds the problem described by the arguments `a`", apart from the complementarity Hessian. -/
structure HoldsDense (o : Obj α) (n : Dims) (a : DenseArgs α) : Prop where
  Q : ∃ v, a.Q = some v ∧ o.d.Q = some (v.take (n.nV * n.nV))
  g : ∃ v, a.g = some v ∧ o.d.g = some (v.take n.nV)
  stacked : ∃ L R, a.L = some L ∧ a.R = some R ∧
    o.d.L = some (L.take (n.nComp * n.nV)) ∧ o.d.R = some (R.take (n.nComp * n.nV)) ∧
    o.d.A = some ((a.A.getD []).take (n.nC * n.nV) ++ L.take (n.nComp * n.nV) ++ R.take (n.nComp * n.nV))
  lbA : o.d.lbA = some (orFill a.lbA n.nC (-. inf) ++ orFill a.lbL n.nComp zero ++ orFill a.lbR n.nComp zero)
  ubA : o.d.ubA = some (orFill a.ubA n.nC inf ++ orFill a.ubL n.nComp inf ++ orFill a.ubR n.nComp inf)
  x0 : o.s.xk = some (orFill a.x0 n.nV zero)
  y0 : o.s.yk = a.y0.map (List.take (n.nV + n.nA))
  dense : o.d.sparse = false

/-- C14 (any arithmetic): if the dense `loadLCQP` returns success then the object holds exactly the
problem described by the arguments.  The arguments need to have only the documented sizes (`Fits`); a
read past these sizes would be a fault in the model. -/
theorem C14_stored (e : Env α) (o o' : Obj α) (n : Dims) (a : DenseArgs α) (hn : o.d.dims = some n)
    (hV : n.nV ≠ 0) (hC : n.nComp ≠ 0) (hf : a.Fits n)
    (h : loadDense e o a = .ok (.successfulReturn, o')) : HoldsDense o' n a := by
  rcases loadDense_ok (e := e) hn hV hC hf with ⟨_, _, h'⟩ | ⟨_, _, _, h'⟩ | ⟨_, _, _, _, h'⟩ |
    ⟨_, _, _, _, Q, g, L, R, hQ, hg, hL, hR, _, _, _, _, h'⟩
  · rw [h'] at h; injection h with h; injection h with h _; cases h
  · rw [h'] at h; injection h with h; injection h with h _; cases h
  · rw [h'] at h; injection h with h; injection h with h _; cases h
  · rw [h'] at h
    injection h with h
    injection h with _ h
    subst h
    exact ⟨⟨Q, hQ, rfl⟩, ⟨g, hg, rfl⟩, ⟨L, R, hL, hR, rfl, rfl, rfl⟩, rfl, rfl, rfl, rfl, rfl⟩

/-- C14 (any arithmetic): box bounds are kept for the initialisation; a missing argument keeps what
an earlier load has left. -/
theorem C14_box (e : Env α) (o o' : Obj α) (n : Dims) (a : DenseArgs α) (hn : o.d.dims = some n)
    (hV : n.nV ≠ 0) (hC : n.nComp ≠ 0) (hf : a.Fits n)
    (h : loadDense e o a = .ok (.successfulReturn, o')) :
    o'.d.lbTmp = (match a.lb with | some v => some (v.take n.nV) | none => o.d.lbTmp) ∧
    o'.d.ubTmp = (match a.ub with | some v => some (v.take n.nV) | none => o.d.ubTmp) := by
  rcases loadDense_ok (e := e) hn hV hC hf with ⟨_, _, h'⟩ | ⟨_, _, _, h'⟩ | ⟨_, _, _, _, h'⟩ |
    ⟨_, _, _, _, Q, g, L, R, hQ, hg, hL, hR, _, _, _, _, h'⟩
  · rw [h'] at h; injection h with h; injection h with h _; cases h
  · rw [h'] at h; injection h with h; injection h with h _; cases h
  · rw [h'] at h; injection h with h; injection h with h _; cases h
  · rw [h'] at h
    injection h with h
    injection h with _ h
    subst h
    refine ⟨?_, ?_⟩
    · show (a.lb.map (List.take n.nV)).orElse _ = _
      cases a.lb <;> rfl
    · show (a.ub.map (List.take n.nV)).orElse _ = _
      cases a.ub <;> rfl

open Classical in
/-- C15: for arguments of the documented sizes with `Q`, `L`, `R` given, the dense `loadLCQP` always
returns, and the code is determined by the first defect of the arguments. -/
theorem C15_codes (e : Env α) (o : Obj α) (n : Dims) (a : DenseArgs α) (hn : o.d.dims = some n)
    (hV : n.nV ≠ 0) (hC : n.nComp ≠ 0) (hf : a.Fits n) :
    ∃ r o', loadDense e o a = .ok (r, o') ∧
      r = (if a.g = none then .invalidObjectiveLinearTerm
        else if a.A = none ∧ 0 < n.nC then .invalidConstraintMatrix
        else if HasMinusInf a.lbL n.nComp ∨ HasMinusInf a.lbR n.nComp then .invalidLowerComplementarityBound
        else .successfulReturn) := by
  rcases loadDense_ok (e := e) hn hV hC hf with ⟨h1, o', h'⟩ | ⟨h1, h2, o', h'⟩ | ⟨h1, h2, h3, o', h'⟩ |
    ⟨h1, h2, h3, h4, Q, g, L, R, hQ, hg, hL, hR, _, _, _, _, h'⟩
  · exact ⟨_, _, h', by rw [if_pos h1]⟩
  · exact ⟨_, _, h', by rw [if_neg h1, if_pos h2]⟩
  · exact ⟨_, _, h', by rw [if_neg h1, if_neg h2, if_pos h3]⟩
  · exact ⟨_, _, h', by rw [if_neg h1, if_neg h2, if_neg (by simp [h3, h4])]⟩

theorem loop_null {σ : Type} (n : Nat) (f : Nat → σ → M σ) (s : σ) (hn : n ≠ 0)
    (h : ∀ i t, f i t = .error .null) : loop n f s = .error .null := by
  induction n with
  | zero => exact absurd rfl hn
  | succ n ih =>
    by_cases h0 : n = 0
    · subst h0
      show (Except.ok s >>= f 0) = _
      exact h 0 s
    · show (loop n f s >>= f n) = _
      rw [ih h0]
      rfl

theorem stackDense_null {e : Env α} {n : Dims} {L R A : Option (List α)} (hV : n.nV ≠ 0) (hC : n.nComp ≠ 0)
    (hL : OptLen L (n.nComp * n.nV)) (hA : OptLen A (n.nC * n.nV)) (hA' : A = none → n.nC = 0)
    (h : L = none ∨ R = none) : stackDense e n L R A = .error .null := by
  have hsz : (n.nC + 2 * n.nComp) * n.nV = n.nC * n.nV + n.nComp * n.nV + n.nComp * n.nV := by ring
  have hpos : n.nComp * n.nV ≠ 0 := Nat.mul_ne_zero hC hV
  unfold stackDense
  dsimp only
  have h0 : (e.alloc 0 ((n.nC + 2 * n.nComp) * n.nV)).length = n.nC * n.nV + n.nComp * n.nV + n.nComp * n.nV := by
    simp [Env.alloc, hsz]
  generalize e.alloc 0 ((n.nC + 2 * n.nComp) * n.nV) = M0 at h0
  have hlA : n.nC * n.nV ≤ (A.getD []).length := by
    cases A with
    | none => simp [hA' rfl]
    | some a => simpa using hA a rfl
  rw [loop_ow (A.getD []) M0 0 (n.nC * n.nV) hlA (by omega) _ (by
    intro i hi v hv c hc
    cases A with
    | none => simp at hv
    | some a =>
      rw [deref_some, ok_bind, rd_some (by simpa using hv), ok_bind, wr_ok (by omega), Nat.zero_add]), ok_bind]
  have l1 : (ow 0 (A.getD []) (n.nC * n.nV) M0).length = M0.length := ow_length hlA (by omega)
  cases L with
  | none =>
    rw [loop_null _ _ _ hpos (by intro i t; rfl)]
    rfl
  | some L =>
    have hR : R = none := by simpa using h
    subst hR
    have hL := hL L rfl
    rw [loop_ow L _ (n.nC * n.nV) (n.nComp * n.nV) hL (by omega) _ (by
      intro i hi v hv c hc
      rw [deref_some, ok_bind, rd_some hv, ok_bind, Nat.add_comm i, wr_ok (by omega)]), ok_bind]
    exact loop_null _ _ _ hpos (by intro i t; rfl)

/-- C15: a missing `L` or `R` is not reported as INVALID_COMPLEMENTARITY_MATRIX: the null pointer is
dereferenced while the constraint matrix is stacked, before the check. -/
theorem C15_missing_LR (e : Env α) (o : Obj α) (n : Dims) (a : DenseArgs α) (hn : o.d.dims = some n)
    (hV : n.nV ≠ 0) (hC : n.nComp ≠ 0)
    (hQ : ∃ v, a.Q = some v ∧ n.nV * n.nV ≤ v.length) (hg : ∃ v, a.g = some v ∧ n.nV ≤ v.length)
    (hlb : OptLen a.lb n.nV) (hub : OptLen a.ub n.nV)
    (hL : OptLen a.L (n.nComp * n.nV)) (hA : OptLen a.A (n.nC * n.nV)) (hA' : ¬ (a.A = none ∧ 0 < n.nC))
    (h : a.L = none ∨ a.R = none) : loadDense e o a = .error .null := by
  obtain ⟨Q, hQ, lQ⟩ := hQ
  obtain ⟨g, hg, lg⟩ := hg
  unfold loadDense
  rw [hn, initd_some, ok_bind, if_neg (by simp [hV, hC])]
  have h1 : setQ o.d a.Q = .ok (.successfulReturn, { o.d with Q := some (Q.take (n.nV * n.nV)) }) := by
    simp only [setQ, hn, initd_some, ok_bind, if_neg hV, hQ, deref_some, copyN_take lQ]
  rw [thenData, h1, ok_bind, if_neg (by simp)]
  dsimp only
  have h2 : setG { o.d with Q := some (Q.take (n.nV * n.nV)) } (some g) = .ok (.successfulReturn,
      { o.d with Q := some (Q.take (n.nV * n.nV)), g := some (g.take n.nV) }) := by
    simp only [setG, hn, initd_some, ok_bind, if_neg hV, copyN_take lg]
  rw [hg, thenData, h2, ok_bind, if_neg (by simp)]
  dsimp only
  have h3 : setTmp { o.d with Q := some (Q.take (n.nV * n.nV)), g := some (g.take n.nV) } a.lb a.ub = .ok
      { o.d with
        Q := some (Q.take (n.nV * n.nV))
        g := some (g.take n.nV)
        lbTmp := (a.lb.map (List.take n.nV)).orElse fun _ => o.d.lbTmp
        ubTmp := (a.ub.map (List.take n.nV)).orElse fun _ => o.d.ubTmp } := by
    simp only [setTmp, hn, initd_some, ok_bind, copyOpt_take hlb, copyOpt_take hub]
  rw [h3, ok_bind]
  have h4 : ∀ d1 : Data α, d1.dims = some n → setConstraints e d1 a.L a.R a.A a.lbA a.ubA = .error .null := by
    intro d1 hd1
    rw [setConstraints, hd1, initd_some, ok_bind, if_neg (by simp [hV, hC]), if_neg hA',
      stackDense_null hV hC hL hA (by intro h; by_contra h'; exact hA' ⟨h, by omega⟩) h]
    rfl
  rw [thenData, h4 _ (by exact hn)]
  rfl

/-- a matrix which is read for stacking is not the null pointer -/
theorem loop_deref {σ : Type} {A : Option (List α)} {m : Nat} {f : Nat → List α → σ → M σ} {s t : σ} (hm : m ≠ 0)
    (h : loop m (fun i s => do let a ← deref A; f i a s) s = .ok t) : A ≠ none := by
  have := loop_partial (fun i _ => i = 0 ∨ A ≠ none) m _ s t h (Or.inl rfl) (by
    intro i _ t t' _ hf
    rw [bind_eq_ok] at hf
    obtain ⟨a, ha, _⟩ := hf
    refine Or.inr ?_
    rintro rfl
    cases ha)
  exact this.resolve_left hm

/-- the codes which the dense `loadLCQP` can return -/
def DenseCode (r : RV) : Prop :=
  r = .successfulReturn ∨ r = .lcqpobjectNotSetup ∨ r = .invalidObjectiveLinearTerm ∨ r = .invalidConstraintMatrix ∨
    r = .invalidLowerComplementarityBound

theorem thenData_code {m : M (RV × Data α)} {s : St α} {k : Data α → M (RV × Obj α)} {q : RV × Obj α}
    (hm : ∀ p, m = .ok p → DenseCode p.1) (hk : ∀ d q, k d = .ok q → DenseCode q.1) (h : thenData m s k = .ok q) :
    DenseCode q.1 := by
  rw [thenData, bind_eq_ok] at h
  obtain ⟨p, hp, h⟩ := h
  split at h
  · injection h with h
    subst h
    exact hm p hp
  · exact hk _ _ h

theorem setConstraints_code {e : Env α} {d : Data α} {L R A lbA ubA : Option (List α)} {p : RV × Data α}
    (h : setConstraints e d L R A lbA ubA = .ok p) : DenseCode p.1 := by
  rw [setConstraints, bind_eq_ok] at h
  obtain ⟨n, _, h⟩ := h
  split at h
  · injection h with h; subst h; exact Or.inr (Or.inl rfl)
  rename_i h0
  split at h
  · injection h with h; subst h; exact Or.inr (Or.inr (Or.inr (Or.inl rfl)))
  rw [bind_eq_ok] at h
  obtain ⟨B, hB, h⟩ := h
  have hLR : L ≠ none ∧ R ≠ none := by
    rw [stackDense, bind_eq_ok] at hB
    obtain ⟨M1, _, hB⟩ := hB
    rw [bind_eq_ok] at hB
    obtain ⟨M2, h2, h3⟩ := hB
    have : n.nComp * n.nV ≠ 0 := Nat.mul_ne_zero (by omega) (by omega)
    exact ⟨loop_deref this h2, loop_deref this h3⟩
  rw [bind_eq_ok] at h
  obtain ⟨l, _, h⟩ := h
  rw [bind_eq_ok] at h
  obtain ⟨u, _, h⟩ := h
  dsimp only at h
  obtain ⟨L, rfl⟩ := Option.ne_none_iff_exists'.mp hLR.1
  obtain ⟨R, rfl⟩ := Option.ne_none_iff_exists'.mp hLR.2
  dsimp only at h
  rw [bind_eq_ok] at h
  obtain ⟨_, _, h⟩ := h
  rw [bind_eq_ok] at h
  obtain ⟨_, _, h⟩ := h
  rw [bind_eq_ok] at h
  obtain ⟨_, _, h⟩ := h
  injection h with h; subst h; exact Or.inl rfl

theorem setCompBounds_code {e : Env α} {d : Data α} {lbL ubL lbR ubR : Option (List α)} {p : RV × Data α}
    (h : setCompBounds e d lbL ubL lbR ubR = .ok p) : DenseCode p.1 := by
  rw [setCompBounds, bind_eq_ok] at h
  obtain ⟨n, _, h⟩ := h
  rw [bind_eq_ok] at h
  obtain ⟨_, _, h⟩ := h
  rw [bind_eq_ok] at h
  obtain ⟨_, _, h⟩ := h
  dsimp only at h
  rw [bind_eq_ok] at h
  obtain ⟨r, _, h⟩ := h
  rcases r with s | s
  · dsimp only at h
    rw [bind_eq_ok] at h
    obtain ⟨r, _, h⟩ := h
    rcases r with t | t
    · injection h with h; subst h; exact Or.inl rfl
    · injection h with h; subst h; exact Or.inr (Or.inr (Or.inr (Or.inr rfl)))
  · injection h with h; subst h; exact Or.inr (Or.inr (Or.inr (Or.inr rfl)))

/-- C15: whatever the object, the arguments and their sizes are: if the dense `loadLCQP` returns, the code is one of
five.  In particular INVALID_COMPLEMENTARITY_MATRIX, which the documentation announces for a missing `L` or `R`, is never
returned. -/
theorem C15_range (e : Env α) (o o' : Obj α) (a : DenseArgs α) (r : RV) (h : loadDense e o a = .ok (r, o')) :
    DenseCode r ∧ r ≠ .invalidComplementarityMatrix := by
  have key : DenseCode r := by
    rw [loadDense, bind_eq_ok] at h
    obtain ⟨n, _, h⟩ := h
    split at h
    · injection h with h; injection h with h _; subst h; exact Or.inr (Or.inl rfl)
    refine thenData_code (q := (r, o')) ?_ ?_ h
    · intro p hp
      rw [setQ, bind_eq_ok] at hp
      obtain ⟨n, _, hp⟩ := hp
      split at hp
      · injection hp with hp; subst hp; exact Or.inr (Or.inl rfl)
      rw [bind_eq_ok] at hp
      obtain ⟨_, _, hp⟩ := hp
      rw [bind_eq_ok] at hp
      obtain ⟨_, _, hp⟩ := hp
      injection hp with hp; subst hp; exact Or.inl rfl
    intro d q hq
    refine thenData_code ?_ ?_ hq
    · intro p hp
      rw [setG, bind_eq_ok] at hp
      obtain ⟨n, _, hp⟩ := hp
      split at hp
      · injection hp with hp; subst hp; exact Or.inr (Or.inl rfl)
      split at hp
      · injection hp with hp; subst hp; exact Or.inr (Or.inr (Or.inl rfl))
      rw [bind_eq_ok] at hp
      obtain ⟨_, _, hp⟩ := hp
      injection hp with hp; subst hp; exact Or.inl rfl
    intro d q hq
    rw [bind_eq_ok] at hq
    obtain ⟨d, _, hq⟩ := hq
    refine thenData_code (fun p => setConstraints_code) ?_ hq
    intro d q hq
    refine thenData_code (fun p => setCompBounds_code) ?_ hq
    intro d q hq
    rw [thenSt, bind_eq_ok] at hq
    obtain ⟨p, hp, hq⟩ := hq
    rw [setInitialGuess, bind_eq_ok] at hp
    obtain ⟨n, _, hp⟩ := hp
    split at hp
    · injection hp with hp; subst hp
      rw [if_pos (by simp)] at hq
      injection hq with hq; subst hq; exact Or.inr (Or.inl rfl)
    rw [bind_eq_ok] at hp
    obtain ⟨_, _, hp⟩ := hp
    rw [bind_eq_ok] at hp
    obtain ⟨_, _, hp⟩ := hp
    injection hp with hp; subst hp
    rw [if_neg (by simp)] at hq
    injection hq with hq; subst hq; exact Or.inl rfl
  refine ⟨key, ?_⟩
  rcases key with h | h | h | h | h <;> rw [h] <;> simp

/-- C15: a missing `Q` is not reported either. -/
theorem C15_missing_Q (e : Env α) (o : Obj α) (n : Dims) (a : DenseArgs α) (hn : o.d.dims = some n)
    (hV : n.nV ≠ 0) (hC : n.nComp ≠ 0) (hQ : a.Q = none) : loadDense e o a = .error .null := by
  have h1 : setQ o.d a.Q = .error .null := by
    rw [setQ, hn, initd_some, ok_bind, if_neg hV, hQ]
    rfl
  rw [loadDense, hn, initd_some, ok_bind, if_neg (by simp [hV, hC]), thenData, h1]
  rfl

/-- C39: the constructor sets the dimensions exactly for valid arguments. -/
theorem C39_dims (opts : Options α) (nV nC nComp : Int) :
    (1 ≤ nV ∧ 1 ≤ nComp ∧ 0 ≤ nC →
      (Obj.new opts nV nC nComp).d.dims = some ⟨nV.toNat, nC.toNat, nComp.toNat⟩ ∧
      (Obj.new opts nV nC nComp).s.out = []) ∧
    (¬ (1 ≤ nV ∧ 1 ≤ nComp ∧ 0 ≤ nC) →
      (Obj.new opts nV nC nComp).d.dims = none ∧
      (Obj.new opts nV nC nComp).s.out = [.msg (if nV ≤ 0 ∨ nComp ≤ 0 then .invalidNumberOfOptimVars
        else .invalidNumberOfConstraintVars)]) := by
  unfold Obj.new
  dsimp only
  refine ⟨?_, ?_⟩
  · rintro ⟨h1, h2, h3⟩
    rw [if_neg (by omega), if_neg (by omega), if_neg (by omega)]
    exact ⟨rfl, rfl⟩
  · intro h
    by_cases h1 : nV ≤ 0
    · rw [if_pos h1, if_pos (Or.inl h1)]
      exact ⟨rfl, rfl⟩
    · rw [if_neg h1]
      by_cases h2 : nComp ≤ 0
      · rw [if_pos h2, if_pos (Or.inr h2)]
        exact ⟨rfl, rfl⟩
      · rw [if_neg h2, if_pos (by omega), if_neg (by omega)]
        exact ⟨rfl, rfl⟩

/-- C39: with valid dimensions every complete set of arguments can be loaded. -/
theorem C39_usable (e : Env α) (opts : Options α) (nV nC nComp : Int) (h : 1 ≤ nV ∧ 1 ≤ nComp ∧ 0 ≤ nC)
    (a : DenseArgs α) (hf : a.Fits ⟨nV.toNat, nC.toNat, nComp.toNat⟩) (hg : a.g ≠ none)
    (hA : a.A = none → nC = 0) (hL : ¬ HasMinusInf a.lbL nComp.toNat) (hR : ¬ HasMinusInf a.lbR nComp.toNat) :
    ∃ o', loadDense e (Obj.new opts nV nC nComp) a = .ok (.successfulReturn, o') := by
  obtain ⟨r, o', h1, h2⟩ := C15_codes e _ _ a ((C39_dims opts nV nC nComp).1 h).1
    (by dsimp only; omega) (by dsimp only; omega) hf
  rw [if_neg hg, if_neg (by rintro ⟨h, h'⟩; have := hA h; dsimp only at h'; omega), if_neg (by simp [hL, hR])] at h2
  subst h2
  exact ⟨o', h1⟩

/-- C39: with invalid dimensions (or the default constructor) the dimensions are indeterminate, and
every load and run reads them: the behaviour is undefined, whatever the arguments.  In particular
`LCQPOBJECT_NOT_SETUP` is not reliably returned. -/
theorem C39_unusable (e : Env α) (o : Obj α) (h : o.d.dims = none) :
    (∀ a, loadDense e o a = .error .uninit) ∧ (∀ a, loadSparse e o a = .error .uninit) ∧
    (∀ fuel, runSolver e fuel o = .error .uninit) := by
  refine ⟨?_, ?_, ?_⟩
  · intro a
    rw [loadDense, h, initd_none]
    rfl
  · intro a
    rw [loadSparse, thenData, setQs, h, initd_none]
    rfl
  · intro fuel
    unfold runSolver initializeSolver chooseSolver
    rw [h, initd_none]
    rfl

end anyArith

/-- C14 (exact arithmetic): the complementarity Hessian is `Lᵀ R + Rᵀ L`. -/
theorem C14_hessian {K : Type} [Field K] [LinearOrder K]
    (e : Env (Ext K)) (o o' : Obj (Ext K)) (n : Dims) (a : DenseArgs (Ext K)) (L R : List K)
    (hn : o.d.dims = some n) (hV : n.nV ≠ 0) (hC : n.nComp ≠ 0) (hf : a.Fits n)
    (hL : a.L = some (emb L)) (hR : a.R = some (emb R))
    (h : loadDense e o a = .ok (.successfulReturn, o')) :
    ∃ c : List K, o'.d.C = some (emb c) ∧ c.length = n.nV * n.nV ∧
      mat n.nV n.nV c = (mat n.nComp n.nV L)ᵀ * mat n.nComp n.nV R + (mat n.nComp n.nV R)ᵀ * mat n.nComp n.nV L := by
  rcases loadDense_ok (e := e) hn hV hC hf with ⟨_, _, h'⟩ | ⟨_, _, _, h'⟩ | ⟨_, _, _, _, h'⟩ |
    ⟨_, _, _, _, Q, g, L', R', hQ, hg, hL', hR', _, _, lL, lR, h'⟩
  · rw [h'] at h; injection h with h; injection h with h _; cases h
  · rw [h'] at h; injection h with h; injection h with h _; cases h
  · rw [h'] at h; injection h with h; injection h with h _; cases h
  · rw [h'] at h
    injection h with h
    injection h with _ h
    subst h
    have e1 : L' = emb L := by rw [hL] at hL'; injection hL' with h; exact h.symm
    have e2 : R' = emb R := by rw [hR] at hR'; injection hR' with h; exact h.symm
    subst e1 e2
    have tk : ∀ (X : List K) k, (emb X).take k = emb (X.take k) := by
      intro X k; simp [emb, List.map_take]
    have lL' : (L.take (n.nComp * n.nV)).length = n.nComp * n.nV := by
      simp [emb] at lL; simp; omega
    have lR' : (R.take (n.nComp * n.nV)).length = n.nComp * n.nV := by
      simp [emb] at lR; simp; omega
    obtain ⟨D, hD, lD, hM⟩ := C03_symProd n.nComp n.nV (L.take (n.nComp * n.nV)) (R.take (n.nComp * n.nV))
      (e.alloc 5 (n.nV * n.nV)) lL' lR' (by simp [Env.alloc])
    rw [symProd_ok (by simpa [emb] using lL') (by simpa [emb] using lR') (by simp [Env.alloc])] at hD
    injection hD with hD
    refine ⟨D, ?_, lD, ?_⟩
    · show some _ = _
      rw [tk, tk, hD]
    · rw [hM]
      have mt : ∀ X : List K, mat n.nComp n.nV (X.take (n.nComp * n.nV)) = mat n.nComp n.nV X := by
        intro X
        ext i j
        simp only [mat, Matrix.of_apply]
        rw [List.getD_eq_getElem?_getD, List.getD_eq_getElem?_getD, List.getElem?_take,
          if_pos (idx_lt i.2 j.2)]
      rw [mt, mt]

/-! Non-vacuity. -/

/-- the arguments of the warm-up example fit -/
theorem Ex.args_fits : Ex.args.Fits ⟨2, 0, 1⟩ := by
  refine ⟨⟨_, rfl, by decide⟩, ⟨_, rfl, by decide⟩, ⟨_, rfl, by decide⟩, ?_, ?_, ?_, ?_, ?_, ?_, ?_, ?_, ?_, ?_, ?_, ?_⟩
  · rintro v ⟨⟩; decide
  all_goals · rintro v ⟨⟩

example : ∃ o', loadDense Ex.env Ex.obj0 Ex.args = .ok (.successfulReturn, o') ∧ HoldsDense o' ⟨2, 0, 1⟩ Ex.args := by
  obtain ⟨o', h⟩ := C39_usable Ex.env Ex.opts 2 0 1 (by decide) Ex.args Ex.args_fits (by simp [Ex.args])
    (fun _ => rfl) (by rintro ⟨v, ⟨⟩, _⟩) (by rintro ⟨v, ⟨⟩, _⟩)
  exact ⟨o', h, C14_stored _ _ _ _ _ rfl (by decide) (by decide) Ex.args_fits h⟩

/-- each of the codes of C15 occurs -/
example : (loadDense Ex.env Ex.obj0 { Ex.args with g := none }).map (·.1) = .ok .invalidObjectiveLinearTerm ∧
    (loadDense Ex.env (Obj.new Ex.opts 2 1 1) Ex.args).map (·.1) = .ok .invalidConstraintMatrix ∧
    (loadDense Ex.env Ex.obj0 { Ex.args with lbL := some [.ninf] }).map (·.1) =
      .ok .invalidLowerComplementarityBound ∧
    (loadDense Ex.env Ex.obj0 { Ex.args with R := none }).map (·.1) = .error .null := by
  refine ⟨?_, ?_, ?_, ?_⟩ <;> decide +kernel

example : (Obj.new Ex.opts 2 0 0).d.dims = none := by decide

end LCQ
