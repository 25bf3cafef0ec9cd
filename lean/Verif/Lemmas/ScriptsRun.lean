import Verif.Lemmas.ScriptsCalls

/-!
# The runs behind the example scripts
-/

namespace LCQ.Script
open Scalar
open scoped Matrix

variable {α : Type} [Scalar α] {n : Dims}

/-- A call with the arguments `prhs` loads the object `o` and runs the solver on it with the result `q`; it returns the last iterate, the
multipliers and the statistics of the run. -/
structure Ran (E : MexEnv α) (fuel nlhs : Nat) (prhs : List (Mx α)) (n : Dims) (opts : Options α) (o : Obj α) (q : Option (RV × Obj α)) :
    Prop where
  load : mexLoad E prhs = .ok (n, opts, o)
  run : runSolver E.e fuel o = .ok q
  going : q = none → mexFunction E fuel nlhs prhs = .ok none
  out : ∀ r, q = some r → ∃ x y f, r.2.s.xk = some x ∧ x.length = n.nV ∧ r.2.s.yk = some y ∧ y.length = n.duals opts.qpSolver ∧
    StatsRight E.time opts.storeSteps r.1 r.2.s.stats f ∧ mexFunction E fuel nlhs prhs = .ok (some (outputs nlhs x y f))

theorem dense_ran {E : MexEnv α} {c : MexCall α n} (hV : n.nV ≠ 0) (hC : n.nComp ≠ 0) (hl : c.lin = none → n.nC = 0) {p : Params α}
    (hp : c.readParams E = .ok p) (hx : OptLen p.x0 n.nV) (hy : OptLen p.y0 (n.nV + n.nA)) (hpair : c.lbL = none ↔ c.lbR = none)
    (h0 : p.opts.qpSolver = 0) {N : Int} (he : ∀ k r, 0 ≤ (E.e.qp k r).iter ∧ (E.e.qp k r).iter ≤ N) (hsm : Small p.opts N) {nlhs : Nat}
    (hn : 1 ≤ nlhs ∧ nlhs ≤ 3) (fuel : Nat) :
    ((MinusInf c.lbL ∨ MinusInf c.lbR) ∧ mexFunction E fuel nlhs c.prhs = .error (.load 1)) ∨
    (¬ (MinusInf c.lbL ∨ MinusInf c.lbR) ∧ ∃ o q, c.Held c.Qᵀ o ∧ Ran E fuel nlhs c.prhs n p.opts o q) := by
  rcases C50_outcome E c hV hC hl hp hx hy with ⟨hb, h⟩ | ⟨hb, o, h, hH⟩
  · left
    refine ⟨hb, ?_⟩
    rw [mexFunction, if_neg (by omega), h]
    rfl
  · right
    obtain ⟨_, _, hP, _⟩ := MexCall.loaded hV hC hl hp hx hy hpair h
    obtain ⟨q, hq, h1, h2⟩ := mex_run h hP (by rw [h0, hH.dense]; rfl) he hsm (fun h2 => by rw [h0] at h2; cases h2) hn fuel
    exact ⟨hb, o, q, hH, h, hq, h1, h2⟩

theorem sparse_ran {E : MexEnv α} {c : SpCall α n} (hV : n.nV ≠ 0) (hC : n.nComp ≠ 0) (hk : c.OK) {p : Params α}
    (hp : c.readParams E = .ok p) (hx : OptLen p.x0 n.nV) (hy : OptLen p.y0 (n.nV + n.nA)) (hb1 : c.lbL = none) (hb2 : c.lbR = none)
    (h0 : p.opts.qpSolver = 1 ∨ (p.opts.qpSolver = 2 ∧ c.box.bind (·.1) = none ∧ c.box.bind (·.2) = none ∧
      ∀ r, (E.e.qp 0 r).setup = true ∧ (E.e.qp 0 r).warmX = true ∧ (E.e.qp 0 r).warmY = true))
    {N : Int} (he : ∀ k r, 0 ≤ (E.e.qp k r).iter ∧ (E.e.qp k r).iter ≤ N) (hsm : Small p.opts N) {nlhs : Nat}
    (hn : 1 ≤ nlhs ∧ nlhs ≤ 3) (fuel : Nat) :
    (symProdSparse c.L.tight c.R.tight = .ok none ∧
      mexFunction E fuel nlhs c.prhs = .error (.load RV.failedSymComplementarityMatrix.code)) ∨
    (∃ o q, c.Held o ∧ Ran E fuel nlhs c.prhs n p.opts o q) := by
  have hpair : c.lbL = none ↔ c.lbR = none := by rw [hb1, hb2]
  have hmi : ¬ (MinusInf c.lbL ∨ MinusInf c.lbR) := by rw [hb1, hb2]; simp [MinusInf]
  obtain ⟨C, hCC, ⟨h1, h⟩ | ⟨_, hb, _⟩ | ⟨S, o, h1, hb, h, hH, hS⟩⟩ := C65_outcome E c hV hC hk hp hx hy
  · refine .inl ⟨h1 ▸ hCC, ?_⟩
    rw [mexFunction, if_neg (by omega), h]
    rfl
  · exact absurd hb hmi
  · right
    obtain ⟨_, _, hP, hload⟩ := SpCall.loaded hV hC hk hp hx hy hpair h
    obtain ⟨q, hq, h1', h2⟩ := mex_run h hP (SpCall.choice hV hC hk hx hy hH hload h0) he hsm (fun h2 => by
      rcases h0 with h0 | ⟨_, _, _, h3⟩
      · rw [h0] at h2; cases h2
      · exact h3) hn fuel
    exact ⟨o, q, hH, h, hq, h1', h2⟩

/-- the options of the scripts -/
theorem given_small {v : Given α} {qd sd : Nat} {M : Int} (hM : 1001 * M ≤ intMax) (h : v.maxIter = none) :
    Small (v.opts (Options.default qd sd)) M := by
  have e : (v.opts (Options.default qd sd)).maxIter = 1000 := by
    simp only [Given.opts, h, pick]
    rfl
  exact ⟨by rw [e]; decide, by rw [e]; decide, by rw [e]; exact hM⟩

theorem given_solver {v : Given α} {o : Options α} {s : Int} (h0 : 0 ≤ s) (h2 : s ≤ 2) (h : v.qpSolver = some s) : (v.opts o).qpSolver = s := by
  simp only [Given.opts, h, pick]
  rw [if_pos (by simp; omega)]

omit [Scalar α] in
/-- both entries of `x` and all multipliers are printed -/
theorem printed_ok {x y : List α} (hx : x.length = 2) (hy : y.length = 4 ∨ y.length = 2) {f : Option (MxStruct α)} :
    ∃ x1 x2, x = [x1, x2] ∧ printed ⟨x, some y, f⟩ = .ok (x1, x2, some y) := by
  obtain ⟨x1, x2, rfl⟩ : ∃ a b, x = [a, b] := List.length_eq_two.mp hx
  refine ⟨x1, x2, rfl, ?_⟩
  rcases hy with hy | hy
  · obtain ⟨a, b, c, d, rfl⟩ : ∃ a b c d, y = [a, b, c, d] := by
      match y, hy with
      | [a, b, c, d], _ => exact ⟨a, b, c, d, rfl⟩
    rfl
  · obtain ⟨a, b, rfl⟩ : ∃ a b, y = [a, b] := List.length_eq_two.mp hy
    rfl

end LCQ.Script
