import Verif.Lemmas.ScriptsRun

/-!
# C79: the example scripts of the MATLAB interface

`Ints E`: the numbers 0, 1, 2 are converted to themselves.  `1001 * M ≤ intMax` for a bound `M` on the iteration counts reported by the
QP solver excludes an overflow of the counters.
-/

namespace LCQ.Script
open Scalar
open scoped Matrix

variable {α : Type} [Scalar α]

/-- C79 (any arithmetic): for every number of directions the assignments in solvers_test.m and optimize_on_circle.m stay inside the
matrices, and the matrices hold the data of the specification. -/
theorem C79_data (N : Nat) (dir : Nat → α × α) : ∃ c, circle N dir = .ok c ∧ c.Are N dir := circle_ok N dir

/-- C79 (any arithmetic): `sparse` of a matrix is a sparse matrix as the interface expects it: it has the dimensions of the matrix, its
indices are inside, the rows of each column increase. -/
theorem C79_sparse {m n : Nat} {F : Nat → Nat → α} {A : Arr α} (h : Has m n F A) : A.sparse.Is m n ∧ A.sparse.Sorted :=
  ⟨h.valid, h.sorted⟩

/-- the QP solver of the script is set up without a failure -/
def SetsUp (E : MexEnv α) : Prop := ∀ r, (E.e.qp 0 r).setup = true ∧ (E.e.qp 0 r).warmX = true ∧ (E.e.qp 0 r).warmY = true

/-- C79 (any arithmetic, any QP answers): warm_up.m with any of the QP solvers has no undefined behaviour and no error, but that with
sparse matrices all products of entries of `L` and `R` may have been rounded to zero.  It prints the last iterate and the multipliers of
the run. -/
theorem C79_warmUp (E : MexEnv α) {qd sd : Nat} (hd : E.dflt = Options.default qd sd) (hT : Ints E) {s : Int} (h0 : 0 ≤ s) (h2 : s ≤ 2)
    {M : Int} (he : ∀ k r, 0 ≤ (E.e.qp k r).iter ∧ (E.e.qp k r).iter ≤ M) (hM : 1001 * M ≤ intMax) (ho : s = 2 → SetsUp E) (fuel : Nat) :
    (s ≠ 0 ∧ symProdSparse (warmUpSparse s : SpCall α _).L.tight (warmUpSparse s : SpCall α _).R.tight = .ok none ∧
      warmUp E fuel s = .error (.load RV.failedSymComplementarityMatrix.code)) ∨
    ∃ o q, mexLoad E (warmUpArgs s) = .ok (⟨2, 0, 1⟩, (warmUpGiven s).opts E.dflt, o) ∧ runSolver E.e fuel o = .ok q ∧
      (s = 0 → (warmUpDense : MexCall α _).Held warmUpDense.Qᵀ o) ∧ (s ≠ 0 → (warmUpSparse s).Held o) ∧
      (q = none → warmUp E fuel s = .ok none) ∧
      ∀ r, q = some r → ∃ x1 x2 y, r.2.s.xk = some [x1, x2] ∧ r.2.s.yk = some y ∧ y.length = (if s = 2 then 2 else 4) ∧
        warmUp E fuel s = .ok (some (x1, x2, some y)) := by
  have hsm : Small ((warmUpGiven s : Given α).opts E.dflt) M := hd ▸ given_small hM rfl
  have hqp : ((warmUpGiven s : Given α).opts E.dflt).qpSolver = s := given_solver h0 h2 rfl
  have hp : readParams E ⟨2, 0, 1⟩ (.struct (warmUpFields s)) = .ok { opts := (warmUpGiven s).opts E.dflt, x0 := none, y0 := none } :=
    readParams_of (warmUpGiven_of hT h0 h2) (x := none) rfl (by rintro l ⟨⟩) rfl
  have hox : OptLen (none : Option (List α)) 2 := by rintro v ⟨⟩
  have hoy : OptLen (none : Option (List α)) 4 := by rintro v ⟨⟩
  have fin : ∀ o q, Ran E fuel 2 (warmUpArgs s) ⟨2, 0, 1⟩ ((warmUpGiven s).opts E.dflt) o q →
      (q = none → warmUp E fuel s = .ok none) ∧
      ∀ r, q = some r → ∃ x1 x2 y, r.2.s.xk = some [x1, x2] ∧ r.2.s.yk = some y ∧ y.length = (if s = 2 then 2 else 4) ∧
        warmUp E fuel s = .ok (some (x1, x2, some y)) := by
    intro o q hr
    refine ⟨fun hn => ?_, fun r hq => ?_⟩
    · rw [warmUp, hr.going hn]
      rfl
    · obtain ⟨x, y, f, hx, lx, hy, ly, _, hm⟩ := hr.out r hq
      have ly' : y.length = (if s = 2 then 2 else 4) := by
        rw [ly, Dims.duals, hqp]
        rfl
      obtain ⟨x1, x2, rfl, hpr⟩ := printed_ok (y := y) (f := none) lx (by rw [ly']; split_ifs <;> simp)
      refine ⟨x1, x2, y, hx, hy, ly', ?_⟩
      rw [warmUp, hm]
      show (lift (printed ⟨[x1, x2], some y, none⟩) >>= fun p => _) = _
      rw [hpr]
      rfl
  rcases Int.lt_or_eq_of_le h0 with hs | rfl
  · rw [warmUp_sparse hs] at fin ⊢
    rcases sparse_ran (E := E) (c := warmUpSparse s) (by decide) (by decide) (warmUpSparse_ok s) hp hox hoy rfl rfl
      (by
        rcases (by omega : s = 1 ∨ s = 2) with h | h
        · exact .inl (hqp.trans h)
        · exact .inr ⟨hqp.trans h, rfl, rfl, ho h⟩) he hsm (nlhs := 2) ⟨by decide, by decide⟩ fuel with ⟨h, h'⟩ | ⟨o, q, hH, hr⟩
    · refine .inl ⟨by omega, h, ?_⟩
      rw [warmUp, warmUp_sparse hs, h']
      rfl
    · exact .inr ⟨o, q, hr.load, hr.run, fun h => by omega, fun _ => hH, fin o q hr⟩
  · rw [warmUp_dense] at fin ⊢
    rcases dense_ran (E := E) (c := warmUpDense) (by decide) (by decide) (fun _ => rfl) hp hox hoy ⟨fun _ => rfl, fun _ => rfl⟩ hqp he hsm
      (nlhs := 2) ⟨by decide, by decide⟩ fuel with ⟨h, h'⟩ | ⟨_, o, q, hH, hr⟩
    · exfalso
      rcases h with ⟨v, h, _⟩ | ⟨v, h, _⟩ <;> cases h
    · exact .inr ⟨o, q, hr.load, hr.run, fun _ => hH, fun h => absurd rfl h, fin o q hr⟩

/-- C79 (any arithmetic, any QP answers): generalized_constraints.m has no undefined behaviour and no error unless one of the bounds
`-2`, `0` is taken for `-∞`.  It prints the last iterate, the four multipliers and the statistics of the run. -/
theorem C79_generalized (E : MexEnv α) {qd sd : Nat} (hd : E.dflt = Options.default qd sd)
    {M : Int} (he : ∀ k r, 0 ≤ (E.e.qp k r).iter ∧ (E.e.qp k r).iter ≤ M) (hM : 1001 * M ≤ intMax) (fuel : Nat) :
    ((MinusInf (generalizedCall : MexCall α _).lbL ∨ MinusInf (generalizedCall : MexCall α _).lbR) ∧
      generalized E fuel = .error (.load 1)) ∨
    ∃ o q, mexLoad E generalizedArgs = .ok (⟨2, 0, 1⟩, E.dflt, o) ∧ runSolver E.e fuel o = .ok q ∧
      (generalizedCall : MexCall α _).Held generalizedCall.Qᵀ o ∧ (q = none → generalized E fuel = .ok none) ∧
      ∀ r, q = some r → ∃ x1 x2 y f, r.2.s.xk = some [x1, x2] ∧ r.2.s.yk = some y ∧ y.length = 4 ∧
        StatsRight E.time false r.1 r.2.s.stats f ∧ generalized E fuel = .ok (some ((x1, x2, some y), f)) := by
  have hsm : Small E.dflt M := by
    rw [hd]
    exact ⟨by show (0 : Int) ≤ 1000; decide, by show 2 * (1000 : Int) + 2 ≤ intMax; decide, hM⟩
  have hox : OptLen (none : Option (List α)) 2 := by rintro v ⟨⟩
  have hoy : OptLen (none : Option (List α)) 4 := by rintro v ⟨⟩
  rcases dense_ran (E := E) (c := generalizedCall) (p := { opts := E.dflt, x0 := none, y0 := none }) (by decide) (by decide) (fun _ => rfl)
    rfl hox hoy ⟨fun h => (nomatch h), fun h => (nomatch h)⟩ (by rw [hd]; rfl) he hsm (nlhs := 3) ⟨by decide, by decide⟩ fuel with
    ⟨h, h'⟩ | ⟨_, o, q, hH, hr⟩
  · refine .inl ⟨h, ?_⟩
    rw [generalized, generalized_call, h']
    rfl
  · refine .inr ⟨o, q, (generalized_call (α := α)) ▸ hr.load, hr.run, hH, fun hn => ?_, fun r hq => ?_⟩
    · rw [generalized, generalized_call, hr.going hn]
      rfl
    · obtain ⟨x, y, f, hx, lx, hy, ly, hf, hm⟩ := hr.out r hq
      have ly' : y.length = 4 := by
        rw [ly, hd]
        rfl
      obtain ⟨x1, x2, rfl, hpr⟩ := printed_ok (y := y) (f := some f) lx (.inl ly')
      refine ⟨x1, x2, y, f, hx, hy, ly', by rw [hd] at hf; exact hf, ?_⟩
      rw [generalized, generalized_call, hm]
      show (lift (printed ⟨[x1, x2], some y, some f⟩) >>= fun p => _) = _
      rw [hpr]
      rfl

/-- C79 (any arithmetic, any QP answers): scale1.m has no undefined behaviour and no error; it returns the last iterate, the four
multipliers and the statistics of the run. -/
theorem C79_scale (E : MexEnv α) {qd sd : Nat} (hd : E.dflt = Options.default qd sd) (hT : Ints E)
    {M : Int} (he : ∀ k r, 0 ≤ (E.e.qp k r).iter ∧ (E.e.qp k r).iter ≤ M) (hM : 1001 * M ≤ intMax) (fuel : Nat) :
    ∃ o q, mexLoad E scaleArgs = .ok (⟨2, 0, 1⟩, (scaleGiven).opts E.dflt, o) ∧ runSolver E.e fuel o = .ok q ∧
      (scaleCall : MexCall α _).Held scaleCall.Qᵀ o ∧ (q = none → scale E fuel = .ok none) ∧
      ∀ r, q = some r → ∃ x y f, r.2.s.xk = some x ∧ r.2.s.yk = some y ∧ x.length = 2 ∧ y.length = 4 ∧
        StatsRight E.time false r.1 r.2.s.stats f ∧ scale E fuel = .ok (some ⟨x, some y, some f⟩) := by
  have hsm : Small ((scaleGiven : Given α).opts E.dflt) M := hd ▸ given_small hM rfl
  have hqp : ((scaleGiven : Given α).opts E.dflt).qpSolver = 0 := by rw [hd]; rfl
  have hp : readParams E ⟨2, 0, 1⟩ (.struct scaleFields) =
      .ok { opts := (scaleGiven).opts E.dflt, x0 := some [ofInt 1, ofInt 1], y0 := none } :=
    readParams_of (scaleGiven_of hT) (x := some [ofInt 1, ofInt 1]) rfl (by rintro l ⟨⟩ h; cases h) rfl
  have hox : OptLen (some [ofInt 1, ofInt 1] : Option (List α)) 2 := by rintro v ⟨⟩; exact le_refl 2
  have hoy : OptLen (none : Option (List α)) 4 := by rintro v ⟨⟩
  rcases dense_ran (E := E) (c := scaleCall) (by decide) (by decide) (fun _ => rfl) hp hox hoy ⟨fun _ => rfl, fun _ => rfl⟩ hqp he hsm
      (nlhs := 3) ⟨by decide, by decide⟩ fuel with ⟨h, h'⟩ | ⟨_, o, q, hH, hr⟩
  · exfalso
    rcases h with ⟨v, h, _⟩ | ⟨v, h, _⟩ <;> cases h
  · refine ⟨o, q, (scale_call (α := α)) ▸ hr.load, hr.run, hH, fun hn => ?_, fun r hq => ?_⟩
    · rw [scale, scale_call, hr.going hn]
    · obtain ⟨x, y, f, hx, lx, hy, ly, hf, hm⟩ := hr.out r hq
      refine ⟨x, y, f, hx, hy, lx, by rw [ly, Dims.duals, hqp]; rfl, by rw [hd] at hf; exact hf, ?_⟩
      rw [scale, scale_call, hm]
      rfl

/-- reading a scalar of the statistics -/
theorem stat_ok {x y : List α} {f : MxStruct α} {t : α} {b : Bool} {rv : RV} {st : Stats α} (h : StatsRight t b rv st f) {name : String}
    (hn : name ∈ statNames) (hq : name ≠ "qp_exit_flag") {v : α} (hv : scalarOf t rv st name = [v]) :
    stat ⟨x, some y, some f⟩ name = .ok v := by
  have h1 := h name hn (.inl hq)
  rw [hv] at h1
  simp only [stat, deref_some, ok_bind, h1]
  rfl

/-- C79 (any arithmetic, any QP answers): each call in solvers_test.m has no undefined behaviour and no error, but that with sparse
matrices all products of entries of `L` and `R` may have been rounded to zero; the script reads the elapsed time and the exit flag of the
run. -/
theorem C79_test (E : MexEnv α) {qd sd : Nat} (hd : E.dflt = Options.default qd sd) (hT : Ints E) {s : Int} (h0 : 0 ≤ s) (h2 : s ≤ 2)
    {M : Int} (he : ∀ k r, 0 ≤ (E.e.qp k r).iter ∧ (E.e.qp k r).iter ≤ M) (hM : 1001 * M ≤ intMax) (ho : s = 2 → SetsUp E) (fuel : Nat)
    {N : Nat} (hN : 1 ≤ N) {dir : Nat → α × α} {c : Circle α} (hc : c.Are N dir) :
    (s ≠ 0 ∧ symProdSparse c.L.sparse.tight c.R.sparse.tight = .ok none ∧
      testCall E fuel c s = .error (.load RV.failedSymComplementarityMatrix.code)) ∨
    ∃ o q, mexLoad E (c.args (decide (s > 0)) (testParams c s)) = .ok (LCQ.Circle.dims N, (testGiven s).opts E.dflt, o) ∧
      runSolver E.e fuel o = .ok q ∧
      (s = 0 → (circleDense N dir (testParams c s)).Held (circleDense N dir (testParams c s)).Qᵀ o) ∧
      (s ≠ 0 → (circleSparse N c (testParams c s)).Held o) ∧
      testCall E fuel c s = .ok (q.map fun r => (E.time, ofInt r.1.code)) := by
  have hsm : Small ((testGiven s : Given α).opts E.dflt) M := hd ▸ given_small hM rfl
  have hqp : ((testGiven s : Given α).opts E.dflt).qpSolver = s := given_solver h0 h2 rfl
  have hp := test_params (E := E) hT h0 h2 hc
  have hox : OptLen (some c.x0.data) (LCQ.Circle.dims N).nV := by rintro v ⟨⟩; exact hc.x0.len.ge
  have hoy : OptLen (none : Option (List α)) ((LCQ.Circle.dims N).nV + (LCQ.Circle.dims N).nA) := by rintro v ⟨⟩
  have hV : (LCQ.Circle.dims N).nV ≠ 0 := by simp only; omega
  have hC : (LCQ.Circle.dims N).nComp ≠ 0 := by simp only; omega
  have fin : ∀ o q, Ran E fuel 3 (c.args (decide (s > 0)) (testParams c s)) (LCQ.Circle.dims N) ((testGiven s).opts E.dflt) o q →
      testCall E fuel c s = .ok (q.map fun r => (E.time, ofInt r.1.code)) := by
    intro o q hr
    cases hq : q with
    | none =>
      rw [testCall, hr.going hq]
      rfl
    | some r =>
      obtain ⟨x, y, f, hx, lx, hy, ly, hf, hm⟩ := hr.out r hq
      have h1 := stat_ok (x := x) (y := y) hf (name := "elapsed_time") (by decide) (by decide) rfl
      have h2 := stat_ok (x := x) (y := y) hf (name := "exit_flag") (by decide) (by decide) rfl
      rw [testCall, hm, mx_ok_bind]
      show (lift (stat ⟨x, some y, some f⟩ "elapsed_time") >>= fun t => lift (stat ⟨x, some y, some f⟩ "exit_flag") >>= fun _ => _) = _
      rw [h1, h2]
      rfl
  rcases Int.lt_or_eq_of_le h0 with hs | rfl
  · have hsp : decide (s > 0) = true := by simpa using hs
    rw [hsp] at fin ⊢
    rw [hc.sparse] at fin ⊢
    rcases sparse_ran (E := E) (c := circleSparse N c (testParams c s)) hV hC (hc.ok _) hp hox hoy rfl rfl
      (by
        rcases (by omega : s = 1 ∨ s = 2) with h | h
        · exact .inl (hqp.trans h)
        · exact .inr ⟨hqp.trans h, rfl, rfl, ho h⟩) he hsm (nlhs := 3) ⟨by decide, by decide⟩ fuel with ⟨h, h'⟩ | ⟨o, q, hH, hr⟩
    · refine .inl ⟨by omega, h, ?_⟩
      rw [testCall, hsp, hc.sparse, h']
      rfl
    · exact .inr ⟨o, q, hr.load, hr.run, fun h => by omega, fun _ => hH, fin o q hr⟩
  · have hsp : decide ((0 : Int) > 0) = false := by decide
    rw [hsp] at fin ⊢
    rw [hc.dense] at fin ⊢
    rcases dense_ran (E := E) (c := circleDense N dir (testParams c 0)) hV hC (fun h => (nomatch h)) hp hox hoy ⟨fun _ => rfl, fun _ => rfl⟩
      hqp he hsm (nlhs := 3) ⟨by decide, by decide⟩ fuel with ⟨h, h'⟩ | ⟨_, o, q, hH, hr⟩
    · exfalso
      rcases h with ⟨v, h, _⟩ | ⟨v, h, _⟩ <;> cases h
    · exact .inr ⟨o, q, hr.load, hr.run, fun _ => hH, fun h => absurd rfl h, fin o q hr⟩

/-- C79 (any arithmetic, any QP answers): each call in optimize_on_circle.m has no undefined behaviour and no error, but that all products
of entries of `L` and `R` may have been rounded to zero; the script records the objective at the last iterate, the total and the outer
iterations of the run. -/
theorem C79_circle (E : MexEnv α) {qd sd : Nat} (hd : E.dflt = Options.default qd sd) (hT : Ints E)
    {M : Int} (he : ∀ k r, 0 ≤ (E.e.qp k r).iter ∧ (E.e.qp k r).iter ≤ M) (hM : 1001 * M ≤ intMax) (fuel : Nat)
    {N : Nat} (hN : 1 ≤ N) {dir : Nat → α × α} {c : Circle α} (hc : c.Are N dir) (rho : α) :
    (symProdSparse c.L.sparse.tight c.R.sparse.tight = .ok none ∧
      circleCall E fuel c rho = .error (.load RV.failedSymComplementarityMatrix.code)) ∨
    ∃ o q, mexLoad E (c.args true (circleParams c rho)) = .ok (LCQ.Circle.dims N, (circleGiven rho).opts E.dflt, o) ∧
      runSolver E.e fuel o = .ok q ∧ (circleSparse N c (circleParams c rho)).Held o ∧
      (q = none → circleCall E fuel c rho = .ok none) ∧
      ∀ r, q = some r → ∃ x v, r.2.s.xk = some x ∧ x.length = 2 + 2 * N ∧ objective x = .ok v ∧
        circleCall E fuel c rho = .ok (some ⟨v, ofInt r.2.s.stats.iterTotal, ofInt r.2.s.stats.iterOuter⟩) := by
  have hsm : Small ((circleGiven rho : Given α).opts E.dflt) M := hd ▸ given_small hM rfl
  have hqp : ((circleGiven rho : Given α).opts E.dflt).qpSolver = 1 := given_solver (by decide) (by decide) rfl
  have hp := circle_params (E := E) hT rho hc
  have hox : OptLen (some c.x0.data) (LCQ.Circle.dims N).nV := by rintro v ⟨⟩; exact hc.x0.len.ge
  have hoy : OptLen (none : Option (List α)) ((LCQ.Circle.dims N).nV + (LCQ.Circle.dims N).nA) := by rintro v ⟨⟩
  have hV : (LCQ.Circle.dims N).nV ≠ 0 := by simp only; omega
  have hC : (LCQ.Circle.dims N).nComp ≠ 0 := by simp only; omega
  rw [hc.sparse]
  rcases sparse_ran (E := E) (c := circleSparse N c (circleParams c rho)) hV hC (hc.ok _) hp hox hoy rfl rfl (.inl hqp) he hsm (nlhs := 3)
    ⟨by decide, by decide⟩ fuel with ⟨h, h'⟩ | ⟨o, q, hH, hr⟩
  · refine .inl ⟨h, ?_⟩
    rw [circleCall, hc.sparse, h']
    rfl
  · refine .inr ⟨o, q, hr.load, hr.run, hH, fun hq => ?_, fun r hq => ?_⟩
    · rw [circleCall, hc.sparse, hr.going hq]
      rfl
    · obtain ⟨x, y, f, hx, lx, hy, ly, hf, hm⟩ := hr.out r hq
      have l0 : 0 < x.length := by rw [lx]; simp only; omega
      have l1 : 1 < x.length := by rw [lx]; simp only; omega
      have h1 := stat_ok (x := x) (y := y) hf (name := "iters_total") (by decide) (by decide) rfl
      have h2 := stat_ok (x := x) (y := y) hf (name := "iters_outer") (by decide) (by decide) rfl
      obtain ⟨v, hv⟩ : ∃ v, objective x = .ok v := ⟨_, by rw [objective, rd_ok l0, rd_ok l1]; rfl⟩
      refine ⟨x, v, hx, lx, hv, ?_⟩
      rw [circleCall, hc.sparse, hm, mx_ok_bind]
      show (lift (objective x) >>= fun f' => lift (stat ⟨x, some y, some f⟩ "iters_total") >>= fun _ =>
        lift (stat ⟨x, some y, some f⟩ "iters_outer") >>= fun _ => _) = _
      rw [hv, h1, h2]
      rfl

/-- C79: the numbers of directions in solvers_test.m are those of `10:20:200`, in increasing order; there are at least three in each round. -/
theorem C79_sizes : (∀ N, N ∈ nVals ↔ 10 ≤ N ∧ N ≤ 200 ∧ N % 20 = 10) ∧ nVals.Pairwise (· < ·) ∧ ∀ N ∈ nVals, 3 ≤ N := by
  refine ⟨fun N => ?_, by decide, by decide⟩
  simp only [nVals, List.mem_map, List.mem_range]
  constructor
  · rintro ⟨j, hj, rfl⟩
    omega
  · intro h
    exact ⟨(N - 10) / 20, by omega, by omega⟩

/-- C79 (any arithmetic, any QP answers): solvers_test.m as a whole.  It has no undefined behaviour; if it ends without the error above it
has recorded the outcome of the three calls for each number of directions. -/
theorem C79_solvers_test (E : MexEnv α) {qd sd : Nat} (hd : E.dflt = Options.default qd sd) (hT : Ints E)
    {M : Int} (he : ∀ k r, 0 ≤ (E.e.qp k r).iter ∧ (E.e.qp k r).iter ≤ M) (hM : 1001 * M ≤ intMax) (ho : SetsUp E) (fuel : Nat)
    (dir : Nat → Nat → α × α) : ∀ Ns : List Nat, (∀ N ∈ Ns, 1 ≤ N) →
    solversTest E fuel dir Ns = .error (.load RV.failedSymComplementarityMatrix.code) ∨ solversTest E fuel dir Ns = .ok none ∨
    ∃ rows, solversTest E fuel dir Ns = .ok (some rows) ∧
      List.Forall₂ (fun N row => ∃ c r0 r1 r2, circle N (dir N) = .ok c ∧ row = [r0, r1, r2] ∧ testCall E fuel c 0 = .ok (some r0) ∧
        testCall E fuel c 1 = .ok (some r1) ∧ testCall E fuel c 2 = .ok (some r2)) Ns rows := by
  intro Ns
  induction Ns with
  | nil => exact fun _ => .inr (.inr ⟨[], rfl, .nil⟩)
  | cons N Ns ih =>
    intro hNs
    obtain ⟨c, hc, hA⟩ := circle_ok N (dir N)
    have key : ∀ s : Int, 0 ≤ s → s ≤ 2 → testCall E fuel c s = .error (.load RV.failedSymComplementarityMatrix.code) ∨
        testCall E fuel c s = .ok none ∨ ∃ r, testCall E fuel c s = .ok (some r) := by
      intro s h0 h2
      rcases C79_test E hd hT h0 h2 he hM (fun _ => ho) fuel (hNs N (by simp)) hA with ⟨_, _, h⟩ | ⟨o, q, _, _, _, _, h⟩
      · exact .inl h
      · cases q with
        | none => exact .inr (.inl h)
        | some r => exact .inr (.inr ⟨_, h⟩)
    rw [solversTest, hc, lift_ok, mx_ok_bind]
    rcases key 0 (by decide) (by decide) with h | h | ⟨r0, h0⟩
    · exact .inl (by rw [h]; rfl)
    · exact .inr (.inl (by rw [h]; rfl))
    rw [h0, mx_ok_bind]
    dsimp only
    rcases key 1 (by decide) (by decide) with h | h | ⟨r1, h1⟩
    · exact .inl (by rw [h]; rfl)
    · exact .inr (.inl (by rw [h]; rfl))
    rw [h1, mx_ok_bind]
    dsimp only
    rcases key 2 (by decide) (by decide) with h | h | ⟨r2, h2⟩
    · exact .inl (by rw [h]; rfl)
    · exact .inr (.inl (by rw [h]; rfl))
    rw [h2, mx_ok_bind]
    dsimp only
    rcases ih (fun N h => hNs N (by simp [h])) with h | h | ⟨rows, h, hr⟩
    · exact .inl (by rw [h]; rfl)
    · exact .inr (.inl (by rw [h]; rfl))
    · exact .inr (.inr ⟨[r0, r1, r2] :: rows, by rw [h]; rfl, .cons ⟨c, r0, r1, r2, hc, rfl, h0, h1, h2⟩ hr⟩)

/-- the rounds of optimize_on_circle.m -/
theorem circleCalls_ok (E : MexEnv α) {qd sd : Nat} (hd : E.dflt = Options.default qd sd) (hT : Ints E)
    {M : Int} (he : ∀ k r, 0 ≤ (E.e.qp k r).iter ∧ (E.e.qp k r).iter ≤ M) (hM : 1001 * M ≤ intMax) (fuel : Nat)
    {N : Nat} (hN : 1 ≤ N) {dir : Nat → α × α} {c : Circle α} (hc : c.Are N dir) : ∀ l : List α,
    circleCalls E fuel c l = .error (.load RV.failedSymComplementarityMatrix.code) ∨ circleCalls E fuel c l = .ok none ∨
    ∃ rows, circleCalls E fuel c l = .ok (some rows) ∧ List.Forall₂ (fun rho row => circleCall E fuel c rho = .ok (some row)) l rows := by
  intro l
  induction l with
  | nil => exact .inr (.inr ⟨[], rfl, .nil⟩)
  | cons rho l ih =>
    have key : circleCall E fuel c rho = .error (.load RV.failedSymComplementarityMatrix.code) ∨ circleCall E fuel c rho = .ok none ∨
        ∃ r, circleCall E fuel c rho = .ok (some r) := by
      rcases C79_circle E hd hT he hM fuel hN hc rho with ⟨_, h⟩ | ⟨o, q, _, _, _, h, h'⟩
      · exact .inl h
      · cases hq : q with
        | none => exact .inr (.inl (h hq))
        | some r =>
          obtain ⟨_, _, _, _, _, h'⟩ := h' r hq
          exact .inr (.inr ⟨_, h'⟩)
    rw [circleCalls]
    rcases key with h | h | ⟨r, h0⟩
    · exact .inl (by rw [h]; rfl)
    · exact .inr (.inl (by rw [h]; rfl))
    rw [h0, mx_ok_bind]
    dsimp only
    rcases ih with h | h | ⟨rows, h, hr⟩
    · exact .inl (by rw [h]; rfl)
    · exact .inr (.inl (by rw [h]; rfl))
    · exact .inr (.inr ⟨r :: rows, by rw [h]; rfl, .cons h0 hr⟩)

/-- C79 (any arithmetic, any QP answers): optimize_on_circle.m as a whole.  It has no undefined behaviour; if it ends without the error
above it has recorded the outcome of one call for each value of the initial penalty parameter. -/
theorem C79_optimize_on_circle (E : MexEnv α) {qd sd : Nat} (hd : E.dflt = Options.default qd sd) (hT : Ints E)
    {M : Int} (he : ∀ k r, 0 ≤ (E.e.qp k r).iter ∧ (E.e.qp k r).iter ≤ M) (hM : 1001 * M ≤ intMax) (fuel : Nat)
    {N : Nat} (hN : 1 ≤ N) (dir : Nat → α × α) :
    optimizeOnCircle E fuel N dir = .error (.load RV.failedSymComplementarityMatrix.code) ∨ optimizeOnCircle E fuel N dir = .ok none ∨
    ∃ c rhos rows, circle N dir = .ok c ∧ rhoVals fuel (lit 10 8) = some rhos ∧ optimizeOnCircle E fuel N dir = .ok (some rows) ∧
      List.Forall₂ (fun rho row => circleCall E fuel c rho = .ok (some row)) rhos rows := by
  obtain ⟨c, hc, hA⟩ := circle_ok N dir
  rw [optimizeOnCircle, hc, lift_ok, mx_ok_bind]
  cases hr : rhoVals fuel (lit 10 8 : α) with
  | none => exact .inr (.inl rfl)
  | some rhos =>
    rcases circleCalls_ok E hd hT he hM fuel hN hA rhos with h | h | ⟨rows, h, hF⟩
    · exact .inl h
    · exact .inr (.inl h)
    · exact .inr (.inr ⟨c, rhos, rows, rfl, rfl, h, hF⟩)

end LCQ.Script
