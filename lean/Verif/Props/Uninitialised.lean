import Verif.Lemmas.Junk
import Verif.Props.Choice
import Verif.Props.SafetyModes
import Verif.Props.SafetySparse

/-!
# C89: uninitialised memory does not influence results

The contents of arrays allocated without initialisation are arbitrary in the model (`Env.junk`, `Env.junkI`).  Two environments
with the same QP solver and the same random numbers are compared.
-/

namespace LCQ
open Scalar

section anyArith
variable {α : Type} [Scalar α]

/-- the two environments differ at most in the contents of uninitialised memory -/
def OtherMemory (e e' : Env α) : Prop := e'.qp = e.qp ∧ e'.rnd = e.rnd

theorem OtherMemory.eq {e e' : Env α} (h : OtherMemory e e') : e' = { e with junk := e'.junk, junkI := e'.junkI } := by
  cases e
  cases e'
  obtain ⟨h1, h2⟩ := h
  subst h1 h2
  rfl

/-- C89 (any arithmetic): a dense load of arguments of the documented sizes returns the same code for all contents of
uninitialised memory (and all other environments), and a successful load leaves the same object. -/
theorem C89_dense (e e' : Env α) (o : Obj α) (n : Dims) (a : DenseArgs α) (hn : o.d.dims = some n) (hV : n.nV ≠ 0)
    (hC : n.nComp ≠ 0) (hf : a.Fits n) :
    ∃ c o1 o2, loadDense e o a = .ok (c, o1) ∧ loadDense e' o a = .ok (c, o2) ∧ (c = .successfulReturn → o1 = o2) := by
  rcases loadDense_ok (e := e) hn hV hC hf with ⟨p, o1, h⟩ | ⟨p1, p2, o1, h⟩ | ⟨p1, p2, p3, o1, h⟩ |
      ⟨p1, p2, p3, p4, Q, g, L, R, hQ, hg, hL, hR, _, _, _, _, h⟩ <;>
    rcases loadDense_ok (e := e') hn hV hC hf with ⟨q, o2, h'⟩ | ⟨q1, q2, o2, h'⟩ | ⟨q1, q2, q3, o2, h'⟩ |
      ⟨q1, q2, q3, q4, Q', g', L', R', hQ', hg', hL', hR', _, _, _, _, h'⟩
  all_goals first
    | (refine ⟨_, _, _, h, h', ?_⟩; intro hc; cases hc; done)
    | (exfalso; tauto)
    | skip
  rw [hQ] at hQ'
  rw [hg] at hg'
  rw [hL] at hL'
  rw [hR] at hR'
  injection hQ' with hQ'
  injection hg' with hg'
  injection hL' with hL'
  injection hR' with hR'
  subst hQ' hg' hL' hR'
  exact ⟨_, _, _, h, h', fun _ => rfl⟩

/-- C89, sparse load. -/
theorem C89_sparse (e e' : Env α) (o : Obj α) (n : Dims) (a : SparseArgs α) (hn : o.d.dims = some n) (hV : n.nV ≠ 0)
    (hC : n.nComp ≠ 0) (hf : a.Fits n) :
    ∃ c o1 o2, loadSparse e o a = .ok (c, o1) ∧ loadSparse e' o a = .ok (c, o2) ∧ (c = .successfulReturn → o1 = o2) := by
  obtain ⟨Q, L, R, C, hQ, hL, hR, _, _, _, hC1, _, h⟩ := loadSparse_ok (e := e) hn hV hC hf
  obtain ⟨Q', L', R', C', hQ', hL', hR', _, _, _, hC1', _, h'⟩ := loadSparse_ok (e := e') hn hV hC hf
  rw [hQ] at hQ'
  rw [hL] at hL'
  rw [hR] at hR'
  injection hQ' with hQ'
  injection hL' with hL'
  injection hR' with hR'
  subst hQ' hL' hR'
  rw [hC1] at hC1'
  injection hC1' with hC1'
  subst hC1'
  rcases h with ⟨p, o1, h⟩ | ⟨p1, p2, o1, h⟩ | ⟨p1, p2, p3, o1, h⟩ | ⟨p1, p2, g, c, hg, lg, hc, h⟩ <;>
    rcases h' with ⟨q, o2, h'⟩ | ⟨q1, q2, o2, h'⟩ | ⟨q1, q2, q3, o2, h'⟩ | ⟨q1, q2, g', c', hg', lg', hc', h'⟩
  all_goals first
    | (refine ⟨_, _, _, h, h', ?_⟩; intro hc; cases hc; done)
    | (exfalso; simp_all; done)
    | (exfalso; tauto)
    | skip
  rw [hg] at hg'
  rw [hc] at hc'
  injection hg' with hg'
  injection hc' with hc'
  subst hg' hc'
  exact ⟨_, _, _, h, h', fun _ => rfl⟩

/-- C89: what can be prepared for a run does not depend on uninitialised memory. -/
theorem C89_prepared (e e' : Env α) (n : Dims) (l : Bool) (o : Obj α) (h : Prepared e n l o) : Prepared e' n l o := by
  induction h with
  | new opts nV nC nComp h hn => exact .new opts nV nC nComp h hn
  | options opts _ ih => exact .options opts ih
  | dense a h hf hp hl ih =>
    obtain ⟨hu, _⟩ := h.untouched
    obtain ⟨c, o1, o2, h1, h2, h3⟩ := C89_dense e e' _ n a hu.dims hu.nV hu.nComp hf
    rw [hl] at h1
    injection h1 with h1
    injection h1 with h4 h5
    subst h4 h5
    refine .dense a ih hf hp ?_
    rw [h2, h3 rfl]
  | sparse a h hf hp hl ih =>
    obtain ⟨hu, _⟩ := h.untouched
    obtain ⟨c, o1, o2, h1, h2, h3⟩ := C89_sparse e e' _ n a hu.dims hu.nV hu.nComp hf
    rw [hl] at h1
    injection h1 with h1
    injection h1 with h4 h5
    subst h4 h5
    refine .sparse a ih hf hp ?_
    rw [h2, h3 rfl]
  | toSparse _ hs ih => exact .toSparse ih hs
  | toDense _ hs ih => exact .toDense ih hs

/-- C89 (any arithmetic, any QP behaviour, all three QP solvers; with OSQP no dual guess): the run of a prepared object is the
same for all contents of uninitialised memory -- same outcome, same code, same object -- with one exception: if no dual guess
was given and the run stops after the first QP with an error code, then the array of multipliers may differ. -/
theorem C89_run (e e' : Env α) (hm : OtherMemory e e') (n : Dims) (o : Obj α) (h : Prepared e n true o)
    (hy : o.d.opts.qpSolver = 2 → o.s.yk = none) (fuel : Nat) :
    runSolver e' fuel o = runSolver e fuel o ∨
    (o.s.yk = none ∧ ∃ (q : RV × Obj α) (y : Option (List α)), q.1 ≠ .successfulReturn ∧ q.2.s.calls ≤ 1 ∧
      runSolver e fuel o = .ok (some q) ∧
      runSolver e' fuel o = .ok (some (q.1, { q.2 with s := { q.2.s with yk := y } }))) := by
  obtain ⟨hu, hr⟩ := h.untouched
  rw [hm.eq]
  have := runSolver_junk (e := e) (j := e'.junk) (jI := e'.junkI) (hr rfl) hy fuel
  rw [hu.calls] at this
  exact this

/-- C89: the same for objects with the dense solver that may have been run before. -/
theorem C89_again (e e' : Env α) (hm : OtherMemory e e') (N : Int) (he : AnsBnd e N) (n : Dims) (o : Obj α)
    (h : DenseUse e N n true o) (fuel : Nat) :
    runSolver e' fuel o = runSolver e fuel o ∨
    (o.s.yk = none ∧ ∃ (q : RV × Obj α) (y : Option (List α)), q.1 ≠ .successfulReturn ∧ q.2.s.calls ≤ o.s.calls + 1 ∧
      runSolver e fuel o = .ok (some q) ∧
      runSolver e' fuel o = .ok (some (q.1, { q.2 with s := { q.2.s with yk := y } }))) := by
  obtain ⟨_, h0, hr⟩ := h.inv he
  rw [hm.eq]
  exact runSolver_junk (hr rfl).1 (by omega) fuel

/-- C89: a successful run, and every run of an object with a dual guess, is repeated exactly. -/
theorem C89_success (e e' : Env α) (hm : OtherMemory e e') (n : Dims) (o : Obj α) (h : Prepared e n true o)
    (hy : o.d.opts.qpSolver = 2 → o.s.yk = none) (fuel : Nat)
    (hs : o.s.yk ≠ none ∨ ∀ q, runSolver e fuel o = .ok (some q) → q.1 = .successfulReturn ∨ 2 ≤ q.2.s.calls) :
    runSolver e' fuel o = runSolver e fuel o := by
  rcases C89_run e e' hm n o h hy fuel with h1 | ⟨h1, q, y, h2, h3, h4, _⟩
  · exact h1
  · rcases hs with hs | hs
    · exact absurd h1 hs
    · rcases hs q h4 with h5 | h5
      · exact absurd h5 h2
      · omega

/-- C89, the exception is real: if no dual guess was given and the first QP fails, the multipliers are uninitialised memory. -/
theorem C89_garbage (e : Env α) (n : Dims) (o : Obj α) (h : Prepared e n true o) (hy : o.s.yk = none)
    (hq : o.d.opts.qpSolver ≠ 2) (hf : ∀ r, (e.qp 0 r).ret ≠ 0) (fuel : Nat) (q : RV × Obj α)
    (hr : runSolver e fuel o = .ok (some q)) (hc : q.1 = .subproblemSolverError) :
    q.2.s.yk = some (List.ofFn fun i : Fin (n.nV + n.nC + 2 * n.nComp) => e.junk 13 i) := by
  obtain ⟨hu, hr0⟩ := h.untouched
  obtain ⟨i, hi, hi'⟩ := initializeSolver_total (e := e) (hr0 rfl)
  have hi1 : i.1 = .successfulReturn := by
    by_contra hne
    have : runSolver e fuel o = .ok (some (i.1, { i.2 with s := i.2.s.say (.msg i.1) })) := by
      unfold runSolver
      rw [hi, ok_bind, if_pos hne]
    rw [this] at hr
    injection hr with hr
    injection hr with hr
    rw [← hr] at hc
    have h33 := C33_code hu.dims hu.nV hi
    rw [hc] at h33
    unfold choiceCode at h33
    split at h33 <;> cases h33
  obtain ⟨off, hd, ha, hyk, -, -, -, hcl, -, -, hos, -⟩ := hi' hi1
  have hy1 : i.2.s.yk = none := (init_yk hi fun h2 => absurd h2 hq).trans hy
  have hno : ¬ ∃ Q A, i.2.d.sub = some (.osqp Q A) := fun h2 => hq (hos h2).1
  have hoff : off = n.nV := by
    rcases hd.sub with ⟨Q, A, _, ho⟩ | ⟨Q, A, _, ho⟩ | ⟨Q, A, h2, _⟩
    · exact ho
    · exact ho
    · exact absurd ⟨Q, A, h2⟩ hno
  obtain ⟨a1, a2, a3⟩ := runSolver_first hi hi1 fuel
  have key : ∀ r, firstStep e i.2.d i.2.s = .ok r → ∃ c s, r = .inr (c, s) ∧
      s.yk = some (e.alloc 13 (n.nV + n.nA)) := by
    intro r hf1
    simp only [firstStep, bind_eq_ok] at hf1
    obtain ⟨s1, h1, q1, hq1, hf1⟩ := hf1
    simp only [solveQP, bind_eq_ok] at hq1
    obtain ⟨r1, hr1, s2, hs2, hq1⟩ := hq1
    have hyr := (subSolve_keeps hr1).2
    have hs2y : s2.yk = some (e.alloc 13 (n.nV + n.nA)) := by
      simp only [afterSolve, bind_eq_ok, initd_eq_ok] at hs2
      obtain ⟨_, _, _, _, _, _, _, _, nd, hnd, hs2⟩ := hs2
      rw [hd.nDuals] at hnd
      injection hnd with hnd
      injection hs2 with hs2
      rw [← hs2, hyr, (firstGradient_iterates h1).2, hy1, ← hnd, hoff]
      rfl
    have hbad : r1.1 ≠ .successfulReturn := by
      obtain ⟨sub, hsub, ⟨h2, _⟩ | ⟨req, a, ha, _, _, h2⟩⟩ := subSolve_ret hr1
      · rw [h2]; simp
      · rcases h2 with ⟨h2, _⟩ | ⟨h2, _⟩ | ⟨h2, _⟩ | ⟨⟨h2, hok⟩ | ⟨h2, _⟩, _⟩
        · rw [h2]; simp
        · rw [h2]; simp
        · rw [h2]; simp
        · exfalso
          have hc0 : s1.calls = 0 := by rw [firstGradient_calls h1, hcl, hu.calls]
          rw [hc0] at ha
          cases sub with
          | dense _ _ _ _ => exact hf req (ha ▸ hok)
          | sparse _ _ _ _ => exact hf req (ha ▸ hok)
          | osqp Q A => exact hno ⟨Q, A, hsub⟩
        · rw [h2]; simp
    rw [if_pos hbad] at hq1
    injection hq1 with hq1
    subst hq1
    rw [if_pos hbad] at hf1
    injection hf1 with hf1
    exact ⟨_, _, hf1.symm, hs2y⟩
  cases hf1 : firstStep e i.2.d i.2.s with
  | error f =>
    rw [a1 _ hf1] at hr
    cases hr
  | ok r =>
    obtain ⟨c, s, rfl, hs⟩ := key r hf1
    rw [a2 _ hf1] at hr
    injection hr with hr
    injection hr with hr
    rw [← hr]
    change s.yk = _
    rw [hs, Env.alloc]
    congr 1
    refine List.ext_getElem (by simp [Dims.nA]; omega) fun i h1 h2 => ?_
    simp

/-- C89, why a dual guess is excluded with OSQP: of the guess that OSQP gets only the first eighth of the entries is the given
one, the others are uninitialised memory. -/
theorem C89_osqp (e : Env α) (n : Dims) (o : Obj α) (h : Prepared e n true o) (hq : o.d.opts.qpSolver = 2) (y : List α)
    (hy : o.s.yk = some y) (i : RV × Obj α) (hi : initializeSolver e o = .ok i) (hs : i.1 = .successfulReturn) :
    ∃ l, i.2.s.yk = some l ∧ l.length = n.nC + 2 * n.nComp ∧
      (∀ k, k < (n.nC + 2 * n.nComp) / 8 → l[k]? = y[n.nV + k]?) ∧
      ∀ k, (n.nC + 2 * n.nComp) / 8 ≤ k → k < n.nC + 2 * n.nComp → l[k]? = some (e.junk 18 k) := by
  obtain ⟨hu, hr0⟩ := h.untouched
  have hr := hr0 rfl
  have ly : y.length = n.nV + n.nA := by
    rcases hr.yk with h1 | ⟨v, h1, lv⟩
    · rw [hy] at h1; cases h1
    · rw [hy] at h1; injection h1 with h1; rw [h1, lv]
  simp only [initializeSolver, bind_eq_ok] at hi
  obtain ⟨c, hc, hi⟩ := hi
  split at hi
  · rename_i hne
    injection hi with hi
    rw [← hi] at hs
    exact absurd hs hne
  · rename_i hne
    have hyi : i.2.s.yk = c.2.s.yk := by
      simp only [initRest, bind_eq_ok] at hi
      obtain ⟨_, _, _, _, _, _, _, _, hi⟩ := hi
      injection hi with hi
      rw [← hi]
      dsimp only
      split <;> rfl
    rw [hyi]
    unfold chooseSolver at hc
    rw [hu.dims, initd_some, ok_bind, if_neg (by omega), if_neg (by omega), if_pos hq] at hc
    split at hc
    · injection hc with hc
      rw [← hc] at hne
      simp at hne
    · simp only [bind_eq_ok] at hc
      obtain ⟨y1, hy1, hc⟩ := hc
      rw [hy] at hy1
      simp only [osqpDualGuess] at hy1
      rw [copy_loop_ok (by omega) (by simp [Env.alloc]), ok_bind] at hy1
      injection hy1 with hy1
      have hcy : c.2.s.yk = y1 := by
        split at hc
        · injection hc with hc; rw [← hc]
        · split at hc
          · injection hc with hc; rw [← hc]
          · simp only [bind_eq_ok] at hc
            obtain ⟨_, _, _, _, _, _, _, _, _, _, hc⟩ := hc
            injection hc with hc
            rw [← hc]
      have e1 : n.nA = n.nC + 2 * n.nComp := rfl
      rw [hcy, ← hy1]
      refine ⟨_, rfl, ?_, ?_, ?_⟩
      · simp [Env.alloc, Dims.nA]; omega
      · intro k hk
        rw [List.getElem?_append_left (by simp [Dims.nA]; omega), List.getElem?_take_of_lt (by rw [e1]; exact hk),
          tab_getElem? _ (by rw [e1]; omega), gt, List.getD_eq_getElem?_getD,
          List.getElem?_eq_getElem (show n.nV + k < y.length by omega), Option.getD_some]
      · intro k hk hk'
        have l1 : ((tab n.nA fun i => gt y (n.nV + i)).take (n.nA / 8)).length = n.nA / 8 := by simp; omega
        rw [List.getElem?_append_right (by omega), l1, List.getElem?_drop,
          show n.nA / 8 + (k - n.nA / 8) = k by omega]
        exact tab_getElem? (e.junk 18) (by omega)

end anyArith

/-! Non-vacuity -/

namespace Ex

/-- `Ex.env` with other contents of uninitialised memory -/
def memory (e : Env (Ext ℚ)) (v : Ext ℚ) : Env (Ext ℚ) := { e with junk := fun _ _ => v, junkI := fun _ => 7 }

example (e : Env (Ext ℚ)) (v : Ext ℚ) : OtherMemory e (memory e v) := ⟨rfl, rfl⟩

/-- load and run -/
def loadRun (e : Env (Ext ℚ)) (fuel : Nat) : M (Option (RV × Obj (Ext ℚ))) := do
  let r ← loadDense e obj0 args
  runSolver e fuel r.2

/-- two successful runs -/
example : (seen (loadRun env 20)).map (fun r => (r.1, r.2.1)) = some (.successfulReturn, some [.fin 1, .fin 0]) ∧
    (seen (loadRun (memory env (.fin 5)) 20)).map (fun r => (r.1, r.2.1)) =
      some (.successfulReturn, some [.fin 1, .fin 0]) := by decide +kernel

/-- the first QP fails: the multipliers are whatever was in memory -/
example : (seen (loadRun (memory (envOf fun _ _ => { good [] [] with ret := 33 }) (.fin 5)) 20)).map (fun r => (r.1, r.2.2.1)) =
    some (.subproblemSolverError, some (List.replicate 4 (.fin 5))) := by decide +kernel

/-- an OSQP solver that fails for a negative dual guess -/
def picky : Env (Ext ℚ) := envOf fun _ q =>
  match q.y0 with
  | some (v :: _) => if v <. .fin 0 then { good [] [] with status := -3 } else good [1, 0] [0, 199/100]
  | _ => good [1, 0] [0, 199/100]

/-- the sparse example with a dual guess and OSQP -/
def guessed (e : Env (Ext ℚ)) (fuel : Nat) : M (Option (RV × Obj (Ext ℚ))) := do
  let r ← loadSparse e obj0 { sargs with y0 := some (emb [0, 0, 0, 0]) }
  runSolver e fuel (setOptions r.2 (sopts 2))

end Ex

/-- C89, witness: with OSQP and a dual guess the return code depends on uninitialised memory. -/
theorem Ex.C89_depends : ∃ e e' : Env (Ext ℚ), OtherMemory e e' ∧
    (seen (guessed e 20)).map (fun r => r.1) = some .successfulReturn ∧
    (seen (guessed e' 20)).map (fun r => r.1) = some .subproblemSolverError :=
  ⟨memory picky (.fin 1), memory picky (.fin (-1)), ⟨rfl, rfl⟩, by decide +kernel, by decide +kernel⟩

end LCQ
