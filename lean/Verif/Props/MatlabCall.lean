import Verif.Props.MatlabSparse
import Verif.Props.SafetyModes
import Verif.Props.Perturb
import Verif.Props.Certify
import Verif.Props.Enough

/-!
# C78: whole calls of the MATLAB interface
-/

namespace LCQ
open Scalar
open scoped Matrix

section anyArith
variable {α : Type} [Scalar α] {n : Dims}

/-- number of multipliers returned to MATLAB -/
def Dims.duals (n : Dims) (solver : Int) : Nat := if solver = 2 then n.nC + 2 * n.nComp else n.nV + n.nC + 2 * n.nComp

/-- The returned statistics are those of the run: every scalar field holds the value its name says, except that the field `qp_exit_flag`
is overwritten if steps have been stored (see `C44_stats`). -/
def StatsRight (time : α) (store : Bool) (ret : RV) (s : Stats α) (f : MxStruct α) : Prop :=
  ∀ name ∈ statNames, (name ≠ "qp_exit_flag" ∨ store = false ∨ s.iterTotal ≤ 0) → f.lookup name = some (scalarOf time ret s name)

/-- the outputs of a call with `k` output arguments -/
def outputs (k : Nat) (x y : List α) (f : MxStruct α) : MexOut α :=
  ⟨x, if k ≤ 1 then none else some y, if k ≤ 2 then none else some f⟩

/-- from a loaded object to the outputs -/
theorem mex_run {E : MexEnv α} {prhs : List (Mx α)} {p : Options α} {o : Obj α} (hl : mexLoad E prhs = .ok (n, p, o))
    (hP : Prepared E.e n true o) (hc : choiceCode p.qpSolver o.d.sparse o.oldBox o.newBox = .successfulReturn) {N : Int}
    (he : ∀ k r, 0 ≤ (E.e.qp k r).iter ∧ (E.e.qp k r).iter ≤ N) (hsm : Small p N)
    (ho : p.qpSolver = 2 → ∀ r, (E.e.qp 0 r).setup = true ∧ (E.e.qp 0 r).warmX = true ∧ (E.e.qp 0 r).warmY = true)
    {nlhs : Nat} (hn : 1 ≤ nlhs ∧ nlhs ≤ 3) (fuel : Nat) :
    ∃ q, runSolver E.e fuel o = .ok q ∧ (q = none → mexFunction E fuel nlhs prhs = .ok none) ∧
      ∀ r, q = some r → ∃ x y f, r.2.s.xk = some x ∧ x.length = n.nV ∧ r.2.s.yk = some y ∧ y.length = n.duals p.qpSolver ∧
        StatsRight E.time p.storeSteps r.1 r.2.s.stats f ∧ mexFunction E fuel nlhs prhs = .ok (some (outputs nlhs x y f)) := by
  obtain ⟨hV, hC, hd, hp, ha, hs⟩ := mexLoad_inv hl
  subst hp
  obtain ⟨hu, hr⟩ := hP.untouched
  have hr := hr rfl
  have he' : AnsBnd E.e N := fun k r => by
    have := he k r
    constructor <;> omega
  obtain ⟨q, hq, hq'⟩ := runSolver_total (e := E.e) hr he' hsm (fun h _ => by rw [hu.calls]; exact ho h) fuel
  refine ⟨q, hq, ?_, ?_⟩
  · rintro rfl
    rw [mexFunction, if_neg (by omega), hl, mx_ok_bind]
    simp only [hq, lift_ok, mx_ok_bind]
  · rintro r rfl
    obtain ⟨i, hi, hcase⟩ := hq' r rfl
    have hi1 : i.1 = .successfulReturn := by rw [C33_code hd hV hi]; exact hc
    rcases hcase with ⟨hne, _⟩ | ⟨_, ⟨x, hx, lx⟩, ⟨off, hnd, y, hy, ly⟩, hdim, _⟩
    · exact absurd hi1 hne
    obtain ⟨t, ht⟩ := run_algo hq hi hi1
    have hdd := (run_ended hq hi hi1).1
    have hnd' := (initializeSolver_duals hd hV hi hi1).1
    rw [← hdd] at hnd'
    have hnd2 : r.2.d.nDuals = some (n.duals o.d.opts.qpSolver) := hnd'
    have hoff : off + n.nA = n.duals o.d.opts.qpSolver := by
      rw [hnd2] at hnd
      injection hnd with hnd
      exact hnd.symm
    rw [hoff] at ly
    have hle : n.duals o.d.opts.qpSolver ≤ n.nC + n.nV + 2 * n.nComp := by
      unfold Dims.duals
      split <;> omega
    have hpos : 0 < n.duals o.d.opts.qpSolver := by
      unfold Dims.duals
      split <;> omega
    obtain ⟨⟨T, hT, hlen⟩, hwide, _⟩ := C30_tracking (fun k r => (he k r).1) hq hi hi1
    have hstats : ∃ f, statsStruct E.e E.time o.d.opts.storeSteps n.nV r.1 r.2.s.stats = .ok f ∧
        StatsRight E.time o.d.opts.storeSteps r.1 r.2.s.stats f := by
      by_cases hst : o.d.opts.storeSteps = false ∨ r.2.s.stats.iterTotal ≤ 0
      · obtain ⟨f, hf, _, h1, _⟩ := C44_plain E.e E.time o.d.opts.storeSteps n.nV r.1 r.2.s.stats hst
        exact ⟨f, hf, fun name hname _ => h1 name hname⟩
      · push Not at hst
        have h1 : o.d.opts.storeSteps = true := by simpa using hst.1
        rw [h1, if_pos rfl] at hlen
        obtain ⟨f, hf, _, h2, _⟩ := C44_stats E.e E.time n.nV r.1 r.2.s.stats T hT (by omega) hlen (hwide n hdim)
        rw [h1]
        refine ⟨f, hf, fun name hname h => h2 name hname ?_⟩
        rcases h with h | h | h
        · exact h
        · cases h
        · omega
    obtain ⟨f, hf, hfr⟩ := hstats
    refine ⟨x, y, f, hx, lx, hy, ly, hfr, ?_⟩
    have g1 := C38_primal r.2 n t x (List.replicate n.nV (zero : α)) hdim ht hx lx.ge (by simp)
    rw [List.take_of_length_le lx.le, List.drop_of_length_le (by simp), List.append_nil] at g1
    have g2 := C38_dual r.2 _ t y (E.e.alloc 23 (n.nC + n.nV + 2 * n.nComp)) hnd2 ht hy ly.ge (by simp [Env.alloc]; omega)
    rw [List.take_of_length_le ly.le] at g2
    have g3 : copyTo (y ++ (E.e.alloc 23 (n.nC + n.nV + 2 * n.nComp)).drop (n.duals o.d.opts.qpSolver)) (n.duals o.d.opts.qpSolver)
        (List.replicate (n.duals o.d.opts.qpSolver) (zero : α)) = .ok y := by
      generalize (E.e.alloc 23 (n.nC + n.nV + 2 * n.nComp)).drop (n.duals o.d.opts.qpSolver) = Z
      rw [copyTo_ok (by rw [List.length_append, ly]; omega) (by simp), List.take_append_of_le_length ly.ge,
        List.take_of_length_le ly.le, List.drop_of_length_le (by simp), List.append_nil]
    have g4 : mexDual E.e n r.2 = .ok y := by
      rw [mexDual, dualTmp, g2]
      simp only [ok_bind, deref_some, lift_ok, mx_ok_bind, getNumberOfDuals, hnd2, initd_some]
      rw [if_neg (by omega), g3]
      rfl
    have hgs : getOutputStatistics r.2 Stats.fresh = r.2.s.stats := rfl
    rw [mexFunction, if_neg (by omega), hl, mx_ok_bind]
    simp only [hq, lift_ok, mx_ok_bind, mexResults, g1, deref_some, g4, hgs, hf, outputs]
    by_cases h1 : nlhs ≤ 1
    · rw [if_pos h1, if_pos h1, if_pos (show nlhs ≤ 2 by omega)]
      rfl
    · by_cases h2 : nlhs ≤ 2
      · rw [if_neg h1, if_neg h1, if_pos h2, if_pos h2]
        rfl
      · rw [if_neg h1, if_neg h1, if_neg h2, if_neg h2]
        rfl

/-- the documented calls with full arrays are loaded into a prepared object -/
theorem MexCall.loaded {E : MexEnv α} {c : MexCall α n} (hV : n.nV ≠ 0) (hC : n.nComp ≠ 0) (hl : c.lin = none → n.nC = 0) {p : Params α}
    (hp : c.readParams E = .ok p) (hx : OptLen p.x0 n.nV) (hy : OptLen p.y0 (n.nV + n.nA)) (hpair : c.lbL = none ↔ c.lbR = none)
    {m : Dims} {q : Options α} {o : Obj α} (h : mexLoad E c.prhs = .ok (m, q, o)) :
    m = n ∧ q = p.opts ∧ Prepared E.e n true o ∧
      loadDense E.e (setOptions (Obj.new E.dflt n.nV n.nC n.nComp) p.opts) (c.args p.x0 p.y0) = .ok (.successfulReturn, o) := by
  have hL := C50_load E c hV hC hl
  rw [hp, mx_ok_bind] at hL
  rw [hL, mx_bind_ok] at h
  obtain ⟨r, hr, h⟩ := h
  rw [lift_eq_ok] at hr
  obtain ⟨rv, o'⟩ := r
  split at h
  · cases h
  · rename_i hrv
    rw [not_not] at hrv
    dsimp only at hrv h
    subst hrv
    injection h with h
    injection h with h1 h
    injection h with h2 h3
    subst h1 h2 h3
    refine ⟨rfl, rfl, .dense (c.args p.x0 p.y0) (.options _ (.new _ _ _ _ ⟨by omega, by omega, by omega⟩ (by simp))) (args_fits c hx hy) ?_ hr, hr⟩
    show vecArg c.lbL = none ↔ vecArg c.lbR = none
    simp only [vecArg, if_neg hC, Option.map_eq_none_iff]
    exact hpair

/-- the documented calls with sparse matrices are loaded into a prepared object -/
theorem SpCall.loaded {E : MexEnv α} {c : SpCall α n} (hV : n.nV ≠ 0) (hC : n.nComp ≠ 0) (hk : c.OK) {p : Params α}
    (hp : c.readParams E = .ok p) (hx : OptLen p.x0 n.nV) (hy : OptLen p.y0 (n.nV + n.nA)) (hpair : c.lbL = none ↔ c.lbR = none)
    {m : Dims} {q : Options α} {o : Obj α} (h : mexLoad E c.prhs = .ok (m, q, o)) :
    m = n ∧ q = p.opts ∧ Prepared E.e n true o ∧
      loadSparse E.e (setOptions (Obj.new E.dflt n.nV n.nC n.nComp) p.opts) (c.args p.x0 p.y0) = .ok (.successfulReturn, o) := by
  have hL := C65_load E c hV hC hk
  rw [hp, mx_ok_bind] at hL
  rw [hL, mx_bind_ok] at h
  obtain ⟨r, hr, h⟩ := h
  rw [lift_eq_ok] at hr
  obtain ⟨rv, o'⟩ := r
  split at h
  · cases h
  · rename_i hrv
    rw [not_not] at hrv
    have hrv := code_zero hrv
    dsimp only at hrv h
    subst hrv
    injection h with h
    injection h with h1 h
    injection h with h2 h3
    subst h1 h2 h3
    refine ⟨rfl, rfl, .sparse (c.args p.x0 p.y0) (.options _ (.new _ _ _ _ ⟨by omega, by omega, by omega⟩ (by simp))) (spArgs_fits c hk hx hy) ?_ hr, hr⟩
    show vecArg c.lbL = none ↔ vecArg c.lbR = none
    simp only [vecArg, if_neg hC, Option.map_eq_none_iff]
    exact hpair

/-- C78 (any arithmetic, any QP answers): every documented call with full arrays, both or none of `lbL`, `lbR`, and the dense solver has
no undefined behaviour and no error but a refused `-∞` in `lbL` or `lbR`.  It returns the last iterate, the multipliers, and the
statistics of the run of the solver on the given problem with the given options. -/
theorem C78_dense (E : MexEnv α) (c : MexCall α n) (hV : n.nV ≠ 0) (hC : n.nComp ≠ 0) (hl : c.lin = none → n.nC = 0) {p : Params α}
    (hp : c.readParams E = .ok p) (hx : OptLen p.x0 n.nV) (hy : OptLen p.y0 (n.nV + n.nA)) (hpair : c.lbL = none ↔ c.lbR = none)
    (h0 : p.opts.qpSolver = 0) {N : Int} (he : ∀ k r, 0 ≤ (E.e.qp k r).iter ∧ (E.e.qp k r).iter ≤ N) (hsm : Small p.opts N) {nlhs : Nat}
    (hn : 1 ≤ nlhs ∧ nlhs ≤ 3) (fuel : Nat) :
    ((MinusInf c.lbL ∨ MinusInf c.lbR) ∧ mexFunction E fuel nlhs c.prhs = .error (.load 1)) ∨
    (¬ (MinusInf c.lbL ∨ MinusInf c.lbR) ∧ ∃ o q, c.Held c.Qᵀ o ∧ o.d.opts = p.opts ∧ runSolver E.e fuel o = .ok q ∧
      (q = none → mexFunction E fuel nlhs c.prhs = .ok none) ∧
      ∀ r, q = some r → ∃ x y f, r.2.s.xk = some x ∧ x.length = n.nV ∧ r.2.s.yk = some y ∧ y.length = n.nV + n.nC + 2 * n.nComp ∧
        StatsRight E.time p.opts.storeSteps r.1 r.2.s.stats f ∧ mexFunction E fuel nlhs c.prhs = .ok (some (outputs nlhs x y f))) := by
  rcases C50_outcome E c hV hC hl hp hx hy with ⟨hb, h⟩ | ⟨hb, o, h, hH⟩
  · left
    refine ⟨hb, ?_⟩
    rw [mexFunction, if_neg (by omega), h]
    rfl
  · right
    obtain ⟨_, _, hP, _⟩ := MexCall.loaded hV hC hl hp hx hy hpair h
    obtain ⟨_, _, _, hopt, _⟩ := mexLoad_inv h
    obtain ⟨q, hq, h1, h2⟩ := mex_run h hP (by rw [h0, hH.dense]; rfl) he hsm (fun h2 => by rw [h0] at h2; cases h2) hn fuel
    refine ⟨hb, o, q, hH, hopt, hq, h1, fun r hr => ?_⟩
    obtain ⟨x, y, f, h3⟩ := h2 r hr
    rw [h0] at h3
    exact ⟨x, y, f, h3⟩

/-- the choice of the QP solver is accepted -/
theorem SpCall.choice {E : MexEnv α} {c : SpCall α n} (hV : n.nV ≠ 0) (hC : n.nComp ≠ 0) (hk : c.OK) {p : Params α}
    (hx : OptLen p.x0 n.nV) (hy : OptLen p.y0 (n.nV + n.nA)) {o : Obj α} (hH : c.Held o)
    (hload : loadSparse E.e (setOptions (Obj.new E.dflt n.nV n.nC n.nComp) p.opts) (c.args p.x0 p.y0) = .ok (.successfulReturn, o))
    {A : Prop} (h0 : p.opts.qpSolver = 1 ∨ (p.opts.qpSolver = 2 ∧ c.box.bind (·.1) = none ∧ c.box.bind (·.2) = none ∧ A)) :
    choiceCode p.opts.qpSolver o.d.sparse o.oldBox o.newBox = .successfulReturn := by
  have hold : o.oldBox = false := by
    have hdims : (setOptions (Obj.new E.dflt n.nV n.nC n.nComp) p.opts).d.dims = some n := (new_eq E.dflt n hV hC).1
    obtain ⟨Q, L, R, C, _, _, _, _, _, _, _, _, h⟩ := loadSparse_ok (e := E.e) hdims hV hC (spArgs_fits c hk hx hy)
    rw [hload] at h
    rcases h with ⟨_, o', h⟩ | ⟨_, _, o', h⟩ | ⟨_, _, _, o', h⟩ | ⟨_, _, g, C', _, _, _, h⟩
    · cases h
    · cases h
    · cases h
    · injection h with h
      injection h with _ h
      rw [h]
      simp only [Obj.oldBox, sparseObj, setOptions, Obj.new, if_neg (show ¬ ((n.nV : Int) ≤ 0) by omega),
        if_neg (show ¬ ((n.nComp : Int) ≤ 0) by omega), if_neg (show ¬ ((n.nC : Int) < 0) by omega)]
      rfl
  rcases h0 with h0 | ⟨h0, hb1, hb2, _⟩
  · rw [h0, hH.sparse]; rfl
  · have : o.newBox = false := by simp [Obj.newBox, hH.lb, hH.ub, hb1, hb2]
    rw [h0, hH.sparse, this, hold]; rfl

/-- C78 (any arithmetic, any QP answers): the same for the documented calls with sparse matrices and one of the sparse solvers.  OSQP
takes no box constraints, and its set-up has to succeed. -/
theorem C78_sparse (E : MexEnv α) (c : SpCall α n) (hV : n.nV ≠ 0) (hC : n.nComp ≠ 0) (hk : c.OK) {p : Params α}
    (hp : c.readParams E = .ok p) (hx : OptLen p.x0 n.nV) (hy : OptLen p.y0 (n.nV + n.nA)) (hpair : c.lbL = none ↔ c.lbR = none)
    (h0 : p.opts.qpSolver = 1 ∨ (p.opts.qpSolver = 2 ∧ c.box.bind (·.1) = none ∧ c.box.bind (·.2) = none ∧
      ∀ r, (E.e.qp 0 r).setup = true ∧ (E.e.qp 0 r).warmX = true ∧ (E.e.qp 0 r).warmY = true))
    {N : Int} (he : ∀ k r, 0 ≤ (E.e.qp k r).iter ∧ (E.e.qp k r).iter ≤ N) (hsm : Small p.opts N) {nlhs : Nat}
    (hn : 1 ≤ nlhs ∧ nlhs ≤ 3) (fuel : Nat) :
    ∃ C, symProdSparse c.L.tight c.R.tight = .ok C ∧
    ((C = none ∧ mexFunction E fuel nlhs c.prhs = .error (.load RV.failedSymComplementarityMatrix.code)) ∨
    (C ≠ none ∧ (MinusInf c.lbL ∨ MinusInf c.lbR) ∧
      mexFunction E fuel nlhs c.prhs = .error (.load RV.invalidLowerComplementarityBound.code)) ∨
    (C ≠ none ∧ ¬ (MinusInf c.lbL ∨ MinusInf c.lbR) ∧ ∃ o q, c.Held o ∧ o.d.Cs = C ∧ o.d.opts = p.opts ∧ runSolver E.e fuel o = .ok q ∧
      (q = none → mexFunction E fuel nlhs c.prhs = .ok none) ∧
      ∀ r, q = some r → ∃ x y f, r.2.s.xk = some x ∧ x.length = n.nV ∧ r.2.s.yk = some y ∧ y.length = n.duals p.opts.qpSolver ∧
        StatsRight E.time p.opts.storeSteps r.1 r.2.s.stats f ∧ mexFunction E fuel nlhs c.prhs = .ok (some (outputs nlhs x y f)))) := by
  obtain ⟨C, hCC, ⟨h1, h⟩ | ⟨h1, hb, h⟩ | ⟨S, o, h1, hb, h, hH, hS⟩⟩ := C65_outcome E c hV hC hk hp hx hy
  · refine ⟨C, hCC, .inl ⟨h1, ?_⟩⟩
    rw [mexFunction, if_neg (by omega), h]
    rfl
  · refine ⟨C, hCC, .inr (.inl ⟨h1, hb, ?_⟩)⟩
    rw [mexFunction, if_neg (by omega), h]
    rfl
  · refine ⟨C, hCC, .inr (.inr ⟨by rw [h1]; simp, hb, ?_⟩)⟩
    obtain ⟨_, _, hP, hload⟩ := SpCall.loaded hV hC hk hp hx hy hpair h
    obtain ⟨_, _, _, hopt, _⟩ := mexLoad_inv h
    obtain ⟨q, hq, h1', h2⟩ := mex_run h hP (SpCall.choice hV hC hk hx hy hH hload h0) he hsm (fun h2 => by
      rcases h0 with h0 | ⟨_, _, _, h3⟩
      · rw [h0] at h2; cases h2
      · exact h3) hn fuel
    exact ⟨o, q, hH, hS.trans h1.symm, hopt, hq, h1', h2⟩

end anyArith

end LCQ
