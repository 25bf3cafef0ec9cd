import Verif.Lemmas.PythonScripts
import Verif.Model.Circle

/-!
# Helper lemmas for C80: the data of the Python scripts and the scripts that run
-/

namespace LCQ.PyScript
open Scalar

variable {α : Type} [Scalar α]

/-! ## data -/

theorem base_args : (baseArgs : PyDense α).args = WarmUp.base := rfl
theorem guessed_args : (guessedArgs : PyDense α).args = WarmUp.guessed := rfl
theorem withA_args (qd sd : Nat) : (withAArgs : PyDense α).args = (WarmUp.withA qd sd).args := rfl
theorem binary_args (qd sd : Nat) (u v : α) : (binaryArgs [u, v]).args = { (WarmUp.binary qd sd).args with x0 := some [u, v] } := rfl
theorem quiet_eq (qd sd : Nat) : (quiet qd sd : PY (Options α)) = .ok (WarmUp.withA qd sd).opts := rfl
theorem dense_opts (qd sd : Nat) : (options qd sd "QPOASES_DENSE" : PY (Options α)) = .ok (WarmUp.opts qd sd 0) := rfl
theorem sparse_opts (qd sd : Nat) : (options qd sd "QPOASES_SPARSE" : PY (Options α)) = .ok (WarmUp.opts qd sd 1) := rfl
theorem osqp_opts (qd sd : Nat) : (options qd sd "OSQP_SPARSE" : PY (Options α)) = .ok (WarmUp.opts qd sd 2) := rfl
theorem maxOptions_eq (qd sd : Nat) : (maxOptions qd sd : PY (Options α)) = .ok (WarmUp.maxPenalty qd sd).opts := rfl
theorem circleOptions_eq (qd sd : Nat) : (circleOptions qd sd : PY (Options α)) = .ok (Circle.options qd sd) := rfl
theorem stepsOptions_eq (qd sd : Nat) :
    (stepsOptions qd sd : PY (Options α)) = .ok ((WarmUp.opts qd sd 1).setStoreSteps true).2 := rfl

theorem ask_four (s : Stats α) : ask s four = .ok [.int s.iterTotal, .int s.iterOuter, .num s.rhoOpt, .int s.subproblemIter] := rfl

/-! ## a script and the C++ program with the same data -/

/-- the script and the program load the same object -/
theorem load_same (e : Env α) (qd sd : Nat) {t : WarmUp.Task α} (ht : t.Loads) (hlate : t.late = false) (hq : t.opts.qpSolver = 0)
    (hr : ∀ r o1, loadDense e (WarmUp.start qd sd t) t.args = .ok (r, o1) → r = .successfulReturn) :
    ∃ o, loadDense e (problem qd sd 2 t.nC t.nComp t.opts) t.args = .ok (.successfulReturn, o) ∧
      WarmUp.prepare e qd sd t = .ok (some o) ∧ Prepared e t.dims true o ∧ o.d.opts = t.opts ∧ o.d.sparse = false := by
  obtain ⟨r, o1, h1, _, hyes⟩ := WarmUp.prepare_ok e qd sd ht
  obtain rfl := hr r o1 h1
  obtain ⟨o, h2, _, hp, hopt, _, hsw⟩ := hyes rfl
  rw [if_neg (by rw [hlate, hq]; simp), WarmUp.loaded, hlate] at hsw
  have hoo : o = o1 := hsw
  subst hoo
  have hst : WarmUp.start qd sd t = problem qd sd 2 t.nC t.nComp t.opts := by rw [WarmUp.start, hlate]; rfl
  refine ⟨o, by rw [← hst]; exact h1, h2, hp, hopt, ?_⟩
  have := loadDense_loads h1
  rw [this.2, if_pos rfl]

theorem small_opts {o : Options α} {M : Int} (hi : o.maxIter = 1000) (hM : 1001 * M ≤ intMax) : Small o M :=
  ⟨by rw [hi]; decide, by rw [hi]; decide, by rw [hi]; exact hM⟩

/-- what a script with dense arrays and the dense QP solver does -/
theorem script (e : Env α) {M : Int} (he : AnsBnd e M) (hM : 1001 * M ≤ intMax) {qd sd : Nat} {t : WarmUp.Task α} (ht : t.Ok)
    (hlate : t.late = false) (hq : t.opts.qpSolver = 0) (hl : t.args.g ≠ none) (hA : t.args.A = none → t.nC = 0)
    (hL : ¬ HasMinusInf t.args.lbL t.nComp) (hR : ¬ HasMinusInf t.args.lbR t.nComp) {a : PyDense α} (ha : a.args = t.args)
    (names : List String) (fuel : Nat) :
    ∃ o q, pyLoadDense e (problem qd sd 2 t.nC t.nComp t.opts) a = .ok (.successfulReturn, o) ∧ o.d.opts = t.opts ∧
      WarmUp.prepare e qd sd t = .ok (some o) ∧
      Ran e fuel o t.dims q ∧ (q = none → finish e fuel (problem qd sd 2 t.nC t.nComp t.opts) (fun o => pyLoadDense e o a) names = .ok none) ∧
      ∀ r, q = some r → finish e fuel (problem qd sd 2 t.nC t.nComp t.opts) (fun o => pyLoadDense e o a) names =
        fetch r.2 (note r.1 "Failed to solve LCQP.") names >>= fun out => .ok (some out) := by
  obtain ⟨o, h1, h2, hp, hopt, hs⟩ := load_same e qd sd ht.toLoads hlate hq (by
    intro r o1 h
    obtain ⟨hu0, _⟩ := (WarmUp.start_prepared e qd sd ht.comp).untouched
    obtain ⟨rv', o', h', hr⟩ := C15_codes e _ _ t.args hu0.dims hu0.nV hu0.nComp ht.fits
    rw [h] at h'
    injection h' with h'
    injection h' with h' _
    rw [h', hr, if_neg hl, if_neg, if_neg]
    · rintro (h | h)
      · exact hL h
      · exact hR h
    · rintro ⟨h, h0⟩
      have := hA h
      simp only [WarmUp.Task.dims] at h0
      omega)
  obtain ⟨hu, hr⟩ := hp.untouched
  have hr := hr rfl
  have hoq : o.d.opts.qpSolver = 0 := by rw [hopt]; exact hq
  obtain ⟨q, hran⟩ := ran e hr hu.nComp he (small_opts (by rw [hopt]; exact ht.iter) hM)
    (by rw [hoq, choiceCode_zero, hs]; rfl) (fun h => by rw [hoq] at h; exact absurd h (by decide)) fuel
  have h1' : pyLoadDense e (problem qd sd 2 t.nC t.nComp t.opts) a = .ok (.successfulReturn, o) := by
    rw [pyLoadDense, ha]; exact h1
  obtain ⟨g1, g2⟩ := finish_eq (load := fun o => pyLoadDense e o a) names h1' hran.run
  exact ⟨o, q, h1', hopt, h2, hran, g1, fun r hr => g2 r hr⟩

/-! ## scripts that are refused -/

/-- dense arrays for a sparse QP solver: the run is refused and the getters read an uninitialised status -/
theorem never (e : Env α) (qd sd : Nat) {nV nC nComp : Nat} (hV : 1 ≤ nV) (hC : 1 ≤ nComp) {opts : Options α}
    (hq : opts.qpSolver = 1 ∨ opts.qpSolver = 2) {a : PyDense α} (hf : a.args.Fits ⟨nV, nC, nComp⟩) (hg : a.args.g ≠ none)
    (hA : a.args.A ≠ none ∨ nC = 0) (hL : a.args.lbL = none) (hR : a.args.lbR = none) (hl : a.args.lb = none) (hu : a.args.ub = none)
    (hy : a.args.y0 = none) (names : List String) (fuel : Nat) :
    ∃ o o', pyLoadDense e (problem qd sd nV nC nComp opts) a = .ok (.successfulReturn, o) ∧
      runSolver e fuel o = .ok (some (.denseSparseMissmatch, o')) ∧ o'.s.calls = 0 ∧
      solve e fuel (problem qd sd nV nC nComp opts) (fun o => pyLoadDense e o a) = .ok (some (["Failed to solve LCQP."], o')) ∧
      finish e fuel (problem qd sd nV nC nComp opts) (fun o => pyLoadDense e o a) names = .error (.fault .uninit) := by
  set n : Dims := ⟨nV, nC, nComp⟩ with hn
  set o0 := problem (α := α) qd sd nV nC nComp opts with ho0
  have hob : o0.d.dims = some n ∧ o0.d.opts = opts ∧ o0.d.lb = none ∧ o0.d.ub = none ∧ o0.s.yk = none ∧ o0.s.algo = none ∧ o0.s.calls = 0 := by
    rw [ho0, problem, Obj.new]
    dsimp only
    rw [if_neg (by omega), if_neg (by omega), if_neg (by omega)]
    exact ⟨rfl, rfl, rfl, rfl, rfl, rfl, rfl⟩
  obtain ⟨h1, h2, h3, h4, h5, h6, h7⟩ := hob
  have hno : ∀ b : Option (List α), b = none → ¬ HasMinusInf b n.nComp := by
    rintro _ rfl ⟨_, h, _⟩
    exact nomatch h
  rcases loadDense_ok (e := e) h1 (by simp [hn]; omega) (by simp [hn]; omega) hf with ⟨h, _⟩ | ⟨_, ⟨h, h'⟩, _⟩ | ⟨_, _, h, _⟩ |
    ⟨_, _, _, _, Q, g, L, R, hQ, hg, hL', hR', _, _, _, _, h⟩
  · exact absurd h hg
  · rcases hA with hA | hA
    · exact absurd h hA
    · subst hA
      exact absurd h' (by simp [hn])
  · rcases h with h | h
    · exact absurd h (hno _ hL)
    · exact absurd h (hno _ hR)
  · set o := denseObj o0 n a.args Q g L R with ho
    have hl1 : pyLoadDense e o0 a = .ok (.successfulReturn, o) := h
    have hd : o.d.dims = some n := h1
    have hs : o.d.sparse = false := rfl
    obtain ⟨o', hr, hs'⟩ := refused e fuel hd hs (by
      rcases hq with hq | hq
      · left
        show o0.d.opts.qpSolver = 1
        rw [h2, hq]
      · right
        refine ⟨?_, ?_, ?_, ?_⟩
        · show o0.d.opts.qpSolver = 2
          rw [h2, hq]
        · exact h3
        · exact h4
        · show a.args.y0.map _ = none
          rw [hy]; rfl)
    have hst : o'.s.algo = none ∧ o'.s.calls = 0 ∧ o'.s.xk = some (orFill a.args.x0 n.nV zero) := by
      rw [hs']
      exact ⟨h6, h7, rfl⟩
    have hd' : o'.d.dims = some n := (runSolver_same hr).1.trans hd
    refine ⟨o, o', hl1, hr, hst.2.1, ?_, ?_⟩
    · exact solve_eq (load := fun o => pyLoadDense e o a) hl1 hr
    · rw [(finish_eq (load := fun o => pyLoadDense e o a) names hl1 hr).2 _ rfl,
        fetch_uninit hd' (by simp [hn]; omega) hst.1 (by
          intro x hx
          rw [hst.2.2] at hx
          injection hx with hx
          subst hx
          cases hx0 : a.args.x0 with
          | none => simp [orFill]
          | some v => simpa [orFill] using hf.x0 v hx0)]
      rfl

/-! ## two problems with one object -/

/-- loading and running with the dense QP solver -/
theorem load_run (e : Env α) {M : Int} (he : AnsBnd e M) (hM : 1001 * M ≤ intMax) {o : Obj α} {n : Dims} (hb : Built o n)
    (hq : o.d.opts.qpSolver = 0) (hi : o.d.opts.maxIter = 1000) {a : PyDense α} (hf : a.args.Fits n)
    (hp : a.args.lbL = none ↔ a.args.lbR = none) (hg : a.args.g ≠ none) (hA : n.nC = 0)
    (hL : ¬ HasMinusInf a.args.lbL n.nComp) (hR : ¬ HasMinusInf a.args.lbR n.nComp) (fuel : Nat) :
    ∃ o1 q, pyLoadDense e o a = .ok (.successfulReturn, o1) ∧ o1.d.opts = o.d.opts ∧ o1.d.sparse = false ∧ Ready o1 n ∧ Ran e fuel o1 n q ∧
      solve e fuel o (fun o => pyLoadDense e o a) = .ok (q.map fun r => (note r.1 "Failed to solve LCQP.", r.2)) := by
  obtain ⟨r, o1, h1, hr⟩ := C15_codes e _ n a.args hb.dims hb.nV hb.nComp hf
  rw [if_neg hg, if_neg (by omega), if_neg (by rintro (h | h); exacts [hL h, hR h])] at hr
  subst hr
  obtain ⟨h2, h3, h4⟩ := hb.load hf hp h1
  have hq1 : o1.d.opts.qpSolver = 0 := by rw [h3, hq]
  obtain ⟨q, hran⟩ := ran e h2 hb.nComp he (small_opts (by rw [h3]; exact hi) hM)
    (by rw [hq1, choiceCode_zero, h4]; rfl) (fun h => by rw [hq1] at h; exact absurd h (by decide)) fuel
  exact ⟨o1, q, h1, h3, h4, h2, hran, solve_eq (load := fun o => pyLoadDense e o a) h1 hran.run⟩

theorem setOptions_built {o : Obj α} {n : Dims} (h : Built o n) {opts : Options α} (hq : opts.qpSolver ≠ 2) : Built (setOptions o opts) n :=
  { h with work := fun h2 => absurd h2 hq }

theorem binary_fits (u v : α) : (binaryArgs [u, v]).args.Fits ⟨2, 0, 2⟩ := by
  rw [binary_args 0 0]
  refine { (WarmUp.binary_ok (α := α) 0 0).fits with x0 := ?_ }
  rintro w ⟨⟩
  exact le_refl _

/-- options for the second problem -/
theorem binaryOptions_ok (qd sd : Nat) : ∃ o, binaryOptions (WarmUp.opts qd sd 0 : Options α) = .ok o ∧ o.qpSolver = 0 ∧ o.maxIter = 1000 ∧
    o = ({ (WarmUp.opts qd sd 0 : Options α) with zeroFirst := false }.setRho0 (ofInt 10)).2 := by
  have h : ∀ (o : Options α) (v : α), (o.setRho0 v).2.qpSolver = o.qpSolver ∧ (o.setRho0 v).2.maxIter = o.maxIter := fun o v => by
    unfold Options.setRho0
    split <;> exact ⟨rfl, rfl⟩
  exact ⟨_, rfl, (h _ _).1, (h _ _).2, rfl⟩

/-- the two runs of warm_up_binary.py -/
theorem binary_run (e : Env α) {M : Int} (he : AnsBnd e M) (hM : 1001 * M ≤ intMax) (h0 : ((ofInt 0 : α) <=. (-. inf)) = false)
    (h1 : ((-. lit 5 1 : α) <=. (-. inf)) = false) (qd sd fuel : Nat) :
    ∃ o q, pyLoadDense e (problem qd sd 2 0 2 (WarmUp.opts qd sd 0)) (binaryArgs [ofInt 0, ofInt 0]) = .ok (.successfulReturn, o) ∧
      runSolver e fuel o = .ok q ∧ (q = none → binary e qd sd fuel = .ok none) ∧
      ∀ r1 o', q = some (r1, o') → ∃ opts o2 q2, binaryOptions (WarmUp.opts qd sd 0) = .ok opts ∧
        Built (setOptions o' opts) ⟨2, 0, 2⟩ ∧ o'.d.lbTmp = none ∧ o'.d.ubTmp = none ∧
        pyLoadDense e (setOptions o' opts) (binaryArgs [ofInt 0, ofInt 3000]) = .ok (.successfulReturn, o2) ∧ o2.d.opts = opts ∧
        runSolver e fuel o2 = .ok q2 ∧ (q2 = none → binary e qd sd fuel = .ok none) ∧
        ∀ r2 o3, q2 = some (r2, o3) → ∃ x y, o3.s.xk = some x ∧ o3.s.yk = some y ∧ x.length = 2 ∧ y.length = 6 ∧
          binary e qd sd fuel = .ok (some ⟨note r1 "Failed to solve LCQP." ++ note r2 "Failed to solve LCQP.", x, y,
            [.int o3.s.stats.iterTotal, .int o3.s.stats.iterOuter, .num o3.s.stats.rhoOpt, .int o3.s.stats.subproblemIter]⟩) := by
  have hL : ¬ HasMinusInf (some [ofInt 0, ofInt 0] : Option (List α)) 2 := by
    rintro ⟨v, ⟨⟩, i, hi, x, hx, h⟩
    obtain rfl | rfl : i = 0 ∨ i = 1 := by omega
    all_goals
      injection hx with hx
      subst hx
      rw [h0] at h
      cases h
  have hR : ¬ HasMinusInf (some [ofInt 0, -. lit 5 1] : Option (List α)) 2 := by
    rintro ⟨v, ⟨⟩, i, hi, x, hx, h⟩
    obtain rfl | rfl : i = 0 ∨ i = 1 := by omega
    · injection hx with hx
      subst hx
      rw [h0] at h
      cases h
    · injection hx with hx
      subst hx
      rw [h1] at h
      cases h
  have key := fun (o : Obj α) (hb : Built o ⟨2, 0, 2⟩) hq hi (u v : α) => load_run e he hM hb hq hi (a := binaryArgs [u, v]) (binary_fits u v)
    ⟨by nofun, by nofun⟩ (by nofun) rfl hL hR fuel
  have hb0 : Built (problem qd sd 2 0 2 (WarmUp.opts qd sd 0 : Options α)) ⟨2, 0, 2⟩ :=
    setOptions_built (Built.new _ ⟨by decide, by decide, by decide⟩) (show (0 : Int) ≠ 2 by decide)
  obtain ⟨o, q, l1, lo, ls, _, hran, hs⟩ := key _ hb0 rfl rfl (ofInt 0) (ofInt 0)
  refine ⟨o, q, l1, hran.run, ?_, ?_⟩
  · rintro rfl
    rw [binary, dense_opts, py_bind]
    dsimp only
    rw [hs]
    rfl
  · rintro r1 o' rfl
    obtain ⟨opts, ho, hq, hi, _⟩ := binaryOptions_ok (α := α) qd sd
    obtain ⟨hr', hop', hl', hu'⟩ := hran.again (by rw [lo]; rfl) _ rfl
    have hsp : o'.d.sparse = false := (runSolver_same hran.run).sparse.trans ls
    have hb1 := setOptions_built (opts := opts) (hr'.built hsp (by decide)) (by rw [hq]; decide)
    obtain ⟨o2, q2, l2, lo2, _, _, hran2, hs2⟩ := key _ hb1 hq hi (ofInt 0) (ofInt 3000)
    have hbin : binary e qd sd fuel = (match q2.map fun r => (note r.1 "Failed to solve LCQP.", r.2) with
        | none => .ok none
        | some r2 => fetch r2.2 (note r1 "Failed to solve LCQP." ++ r2.1) four >>= fun out => .ok (some out)) := by
      rw [binary, dense_opts, py_bind]
      dsimp only
      rw [hs]
      have p0 : put1 [ofInt 0, ofInt 0] 0 (ofInt 0) = (.ok [ofInt 0, ofInt 0] : PY (List α)) := rfl
      have p1 : put1 [ofInt 0, ofInt 0] 1 (ofInt 3000) = (.ok [ofInt 0, ofInt 3000] : PY (List α)) := rfl
      simp only [Option.map_some, py_bind, p0, p1, ho, hs2]
      cases q2 with
      | none => rfl
      | some r => rfl
    refine ⟨opts, o2, q2, ho, hb1, hl', hu', l2, lo2, hran2.run, ?_, ?_⟩
    · rintro rfl
      exact hbin
    · rintro r2 o3 rfl
      obtain ⟨x, y, hx, hy, lx, ly, hf⟩ := hran2.out _ rfl
      refine ⟨x, y, hx, hy, lx, ly.trans (by rw [lo2]; simp [duals, setOptions, hq]), ?_⟩
      rw [hbin, Option.map_some]
      dsimp only
      rw [hf _ _ _ (ask_four _)]
      rfl

end LCQ.PyScript
