import Verif.Model.WarmUp
import Verif.Props.SafetyModes
import Verif.Props.Choice
import Verif.Props.Load

/-!
# Helper lemmas for C77: the warm-up programs in any arithmetic
-/

namespace LCQ.WarmUp
open Scalar

variable {α : Type} [Scalar α]

/-- dimensions of a program -/
abbrev Task.dims (t : Task α) : Dims := ⟨2, t.nC, t.nComp⟩

/-- number of multipliers the solver writes -/
def Task.duals (t : Task α) : Nat := if t.opts.qpSolver = 2 then t.nC + 2 * t.nComp else 2 + t.nC + 2 * t.nComp

/-- the arguments have the documented sizes -/
structure Task.Loads (t : Task α) : Prop where
  fits : t.args.Fits t.dims
  pair : t.args.lbL = none ↔ t.args.lbR = none
  comp : 1 ≤ t.nComp
  iter : t.opts.maxIter = 1000

/-- the printed arrays are large enough as well -/
structure Task.Ok (t : Task α) : Prop extends t.Loads where
  ny : t.duals ≤ t.ny
  shown : t.shown ≤ t.duals

/-- the object before loading -/
def start (qd sd : Nat) (t : Task α) : Obj α :=
  if t.late then Obj.new (Options.default qd sd) 2 t.nC t.nComp
  else setOptions (Obj.new (Options.default qd sd) 2 t.nC t.nComp) t.opts

/-- the object after loading, with the options of the program -/
def loaded (t : Task α) (o : Obj α) : Obj α := if t.late then setOptions o t.opts else o

theorem start_prepared (e : Env α) (qd sd : Nat) {t : Task α} (h : 1 ≤ t.nComp) : Prepared e t.dims false (start qd sd t) := by
  have h0 : Prepared e t.dims false (Obj.new (Options.default qd sd) 2 t.nC t.nComp : Obj α) :=
    .new _ _ _ _ ⟨by decide, by omega, by omega⟩ (by simp)
  unfold start
  split
  · exact h0
  · exact .options _ h0

theorem start_data (qd sd : Nat) {t : Task α} (h : 1 ≤ t.nComp) : (start qd sd t).d =
    { (Obj.blank (if t.late then Options.default qd sd else t.opts)).d with dims := some t.dims } := by
  unfold start
  split <;>
  · simp only [setOptions, Obj.new]
    rw [if_neg (by omega), if_neg (by omega), if_neg (by omega)]
    rfl

/-- the programs load, set the options and switch the storage -/
theorem prepare_ok (e : Env α) (qd sd : Nat) {t : Task α} (ht : t.Loads) :
    ∃ r o1, loadDense e (start qd sd t) t.args = .ok (r, o1) ∧ (r ≠ .successfulReturn → prepare e qd sd t = .ok none) ∧
      (r = .successfulReturn → ∃ o, prepare e qd sd t = .ok (some o) ∧ Prepared e t.dims true o1 ∧ Prepared e t.dims true o ∧
        o.d.opts = t.opts ∧ (loaded t o1).d.opts = t.opts ∧
        if t.late ∨ t.opts.qpSolver ≥ 1 then switchToSparse (loaded t o1) = .ok (.successfulReturn, o) ∧ o.d.sparse = true
        else o = loaded t o1) := by
  have hp := start_prepared e qd sd ht.comp
  obtain ⟨hu, _⟩ := hp.untouched
  obtain ⟨r, o1, h1, hr⟩ := C15_codes e _ t.dims t.args hu.dims hu.nV hu.nComp ht.fits
  refine ⟨r, o1, h1, ?_, ?_⟩
  · intro hne
    unfold start at h1
    unfold prepare
    dsimp only
    rw [h1, ok_bind, if_pos hne]
  · rintro rfl
    have hp1 : Prepared e t.dims true o1 := .dense t.args hp ht.fits ht.pair h1
    have hopt : o1.d.opts = (start qd sd t).d.opts := (hu.toBuilt.load ht.fits ht.pair h1).2.1
    have hp2 : Prepared e t.dims true (loaded t o1) := by
      unfold loaded
      split
      · exact .options _ hp1
      · exact hp1
    have hopt2 : (loaded t o1).d.opts = t.opts := by
      unfold loaded
      cases hl : t.late
      · rw [if_neg (by simp), hopt, start, hl]; rfl
      · rfl
    have hm : prepare e qd sd t = if t.late ∨ t.opts.qpSolver ≥ 1 then switchToSparse (loaded t o1) >>= fun r =>
        if r.1 ≠ .successfulReturn then .ok none else .ok (some r.2) else .ok (some (loaded t o1)) := by
      unfold start at h1
      unfold prepare
      dsimp only
      rw [h1, ok_bind, if_neg (by simp)]
      rfl
    by_cases hsw : t.late ∨ t.opts.qpSolver ≥ 1
    · obtain ⟨hu2, hr2⟩ := hp2.untouched
      obtain ⟨o, h2, _, _, hs, ho⟩ := hu2.toSparse (hr2 rfl)
      refine ⟨o, ?_, hp1, hp2.toSparse h2, ho.trans hopt2, hopt2, ?_⟩
      · rw [hm, if_pos hsw, h2, ok_bind, if_neg (by simp)]
      · rw [if_pos hsw]; exact ⟨h2, hs⟩
    · exact ⟨loaded t o1, by rw [hm, if_neg hsw], hp1, hp2, hopt2, hopt2, by rw [if_neg hsw]⟩

theorem read_loop {ys : List α} : ∀ k, k ≤ ys.length → loop k (fun i (_ : Unit) => (do
    let _ ← rd ys i
    .ok () : M Unit)) () = .ok () := by
  intro k hk
  exact loop_eq (fun _ => ()) k _ _ rfl fun i hi => by
    rw [rd_ok (by omega), ok_bind]

/-- fetching and printing the solution -/
theorem show_ok (e : Env α) {t : Task α} (ht : t.Ok) {o : Obj α} {s : AlgStat} {x y : List α} (hd : o.d.dims = some t.dims)
    (hn : o.d.nDuals = some t.duals) (hs : o.s.algo = some s) (hx : o.s.xk = some x) (lx : x.length = 2) (hy : o.s.yk = some y)
    (ly : y.length = t.duals) :
    show' e t o = .ok ⟨0, some (x, y ++ (e.alloc 1 t.ny).drop t.duals,
      if t.stats then some (getOutputStatistics o Stats.fresh) else none)⟩ := by
  have ln : ∀ k m, (e.alloc k m).length = m := fun k m => by simp [Env.alloc]
  have g1 := C38_primal o t.dims s x (e.alloc 0 2) hd hs hx lx.ge (by simp [ln])
  have g2 := C38_dual o _ s y (e.alloc 1 t.ny) hn hs hy ly.ge (by rw [ln]; exact ht.ny)
  rw [List.take_of_length_le lx.le, List.drop_of_length_le (by simp [ln]), List.append_nil] at g1
  rw [List.take_of_length_le ly.le] at g2
  have hl : t.shown ≤ (y ++ (e.alloc 1 t.ny).drop t.duals).length := by
    rw [List.length_append, ly]
    have := ht.shown
    omega
  simp only [show', g1, g2, ok_bind, deref_some, rd_ok (show 0 < x.length by omega), rd_ok (show 1 < x.length by omega),
    read_loop _ hl]

/-- a run of a prepared program -/
theorem run_ok {e : Env α} {M : Int} (he : AnsBnd e M) (hM : 1001 * M ≤ intMax) {t : Task α} (ht : t.Ok)
    (ho : t.opts.qpSolver = 2 → ∀ r, (e.qp 0 r).setup = true ∧ (e.qp 0 r).warmX = true ∧ (e.qp 0 r).warmY = true)
    {o : Obj α} (hp : Prepared e t.dims true o) (hopt : o.d.opts = t.opts) (fuel : Nat) :
    ∃ q, runSolver e fuel o = .ok q ∧ ∀ r, q = some (.successfulReturn, r) →
      ∃ x y : List α, r.s.xk = some x ∧ r.s.yk = some y ∧ x.length = 2 ∧ y.length = t.duals ∧
        show' e t r = .ok ⟨0, some (x, y ++ (e.alloc 1 t.ny).drop t.duals,
          if t.stats then some (getOutputStatistics r Stats.fresh) else none)⟩ := by
  have hsm : Small o.d.opts M := by
    rw [hopt]
    refine ⟨by rw [ht.iter]; decide, by rw [ht.iter]; decide, by rw [ht.iter]; exact hM⟩
  obtain ⟨hu, hr⟩ := hp.untouched
  have hr := hr rfl
  obtain ⟨q, hq, hq'⟩ := runSolver_total (e := e) hr he hsm (fun h _ => by rw [hu.calls]; exact ho (by rw [← hopt]; exact h)) fuel
  refine ⟨q, hq, ?_⟩
  rintro r rfl
  obtain ⟨i, hi, hc⟩ := hq' _ rfl
  rcases hc with ⟨hne, hri⟩ | ⟨hok, ⟨x, hx, lx⟩, ⟨off, hnd, y, hy, ly⟩, hdim, _⟩
  · exact absurd hri.symm hne
  · obtain ⟨s, hs⟩ := run_algo hq hi hok
    have hd := (run_ended hq hi hok).1
    have hn := (initializeSolver_duals hr.dims hr.nV hi hok).1
    rw [hopt, ← hd] at hn
    have hn' : r.d.nDuals = some t.duals := hn
    dsimp only at hnd hx hy hdim hs lx
    rw [hnd] at hn'
    injection hn' with hn'
    rw [hn'] at hnd ly
    exact ⟨x, y, hx, hy, lx, ly, show_ok e ht hdim hnd hs hx lx hy ly⟩

theorem main_of {e : Env α} {qd sd : Nat} {t : Task α} {o : Obj α} (h : prepare e qd sd t = .ok (some o)) (fuel : Nat) :
    main e qd sd t fuel = runSolver e fuel o >>= fun q => match q with
      | none => .ok none
      | some r => if r.1 ≠ .successfulReturn then .ok (some ⟨1, none⟩) else show' e t r.2 >>= fun out => .ok (some out) := by
  rw [main, h, ok_bind]
  rfl

/-! ## the programs -/

theorem base_fits {n : Dims} (hV : n.nV = 2) (hK : n.nComp = 1) : (base : DenseArgs α).Fits n := by
  obtain ⟨a, b, c⟩ := n
  subst hV hK
  refine ⟨⟨_, rfl, by simp⟩, ⟨_, rfl, by simp⟩, ⟨_, rfl, by simp⟩, ?_, ?_, ?_, ?_, ?_, ?_, ?_, ?_, ?_, ?_, ?_, ?_⟩ <;>
    (intro v h; simp [base] at h; try (subst h; simp))

theorem guessed_fits : (guessed : DenseArgs α).Fits ⟨2, 0, 1⟩ := by
  refine ⟨⟨_, rfl, by simp⟩, ⟨_, rfl, by simp⟩, ⟨_, rfl, by simp⟩, ?_, ?_, ?_, ?_, ?_, ?_, ?_, ?_, ?_, ?_, ?_, ?_⟩ <;>
    intro v h <;> simp [guessed, base] at h <;> subst h <;> simp [Dims.nA]

theorem setMaxRho_cases (o : Options α) (v : α) : (o.setMaxRho v).2 = o ∨ (o.setMaxRho v).2 = { o with maxRho := v } := by
  unfold Options.setMaxRho
  split
  · exact Or.inl rfl
  · exact Or.inr rfl

theorem warmUp_ok (qd sd : Nat) : (warmUp qd sd : Task α).Ok :=
  ⟨⟨guessed_fits, Iff.rfl, Nat.le_of_ble_eq_true rfl, rfl⟩, Nat.le_of_ble_eq_true rfl, Nat.le_of_ble_eq_true rfl⟩

theorem warmUpTest_ok (qd sd : Nat) : (warmUpTest qd sd : Task α).Ok :=
  ⟨⟨guessed_fits, Iff.rfl, Nat.le_of_ble_eq_true rfl, rfl⟩, Nat.le_of_ble_eq_true rfl, Nat.le_of_ble_eq_true rfl⟩

theorem storeSteps_ok (qd sd : Nat) : (storeSteps qd sd : Task α).Ok :=
  ⟨⟨guessed_fits, Iff.rfl, Nat.le_of_ble_eq_true rfl, rfl⟩, Nat.le_of_ble_eq_true rfl, Nat.le_of_ble_eq_true rfl⟩

theorem qpoasesOptions_ok (qd sd qp : Nat) : (qpoasesOptions qd sd qp : Task α).Ok :=
  ⟨⟨guessed_fits, Iff.rfl, Nat.le_of_ble_eq_true rfl, rfl⟩, Nat.le_of_ble_eq_true rfl, Nat.le_of_ble_eq_true rfl⟩

theorem sparse_ok (qd sd : Nat) : (sparse qd sd : Task α).Ok :=
  ⟨⟨base_fits rfl rfl, Iff.rfl, Nat.le_of_ble_eq_true rfl, rfl⟩, Nat.le_of_ble_eq_true rfl, Nat.le_of_ble_eq_true rfl⟩

theorem maxPenalty_opts (qd sd : Nat) : (maxPenalty qd sd : Task α).opts.maxIter = 1000 ∧ (maxPenalty qd sd : Task α).opts.qpSolver = 0 := by
  simp only [maxPenalty]
  rcases setMaxRho_cases (opts qd sd 0 : Options α) (ofInt 1) with h | h <;> rw [h] <;> exact ⟨rfl, rfl⟩

theorem maxPenalty_loads (qd sd : Nat) : (maxPenalty qd sd : Task α).Loads :=
  ⟨guessed_fits, Iff.rfl, Nat.le_of_ble_eq_true rfl, (maxPenalty_opts qd sd).1⟩

theorem osqpOptions_ok (qd sd sp : Nat) : (osqpOptions qd sd sp : Task α).Ok := by
  refine ⟨⟨?_, Iff.rfl, Nat.le_of_ble_eq_true rfl, rfl⟩, Nat.le_of_ble_eq_true rfl, Nat.le_of_ble_eq_true rfl⟩
  show DenseArgs.Fits _ ⟨2, 0, 1⟩
  refine ⟨⟨_, rfl, by simp⟩, ⟨_, rfl, by simp⟩, ⟨_, rfl, by simp⟩, ?_, ?_, ?_, ?_, ?_, ?_, ?_, ?_, ?_, ?_, ?_, ?_⟩ <;>
    intro v h <;> simp [osqpOptions, base] at h <;> subst h <;> simp

theorem shifted_ok (qd sd : Nat) : (shifted qd sd : Task α).Ok := by
  refine ⟨⟨?_, by simp [shifted], Nat.le_of_ble_eq_true rfl, rfl⟩, Nat.le_of_ble_eq_true rfl, Nat.le_of_ble_eq_true rfl⟩
  show DenseArgs.Fits _ ⟨2, 0, 1⟩
  refine ⟨⟨_, rfl, by simp⟩, ⟨_, rfl, by simp⟩, ⟨_, rfl, by simp⟩, ?_, ?_, ?_, ?_, ?_, ?_, ?_, ?_, ?_, ?_, ?_, ?_⟩ <;>
    intro v h <;> simp [shifted, guessed, base] at h <;> subst h <;> simp [Dims.nA]

theorem withA_ok (qd sd : Nat) : (withA qd sd : Task α).Ok := by
  refine ⟨⟨?_, Iff.rfl, Nat.le_of_ble_eq_true rfl, rfl⟩, Nat.le_of_ble_eq_true rfl, Nat.le_of_ble_eq_true rfl⟩
  show DenseArgs.Fits _ ⟨2, 1, 1⟩
  refine ⟨⟨_, rfl, by simp⟩, ⟨_, rfl, by simp⟩, ⟨_, rfl, by simp⟩, ?_, ?_, ?_, ?_, ?_, ?_, ?_, ?_, ?_, ?_, ?_, ?_⟩ <;>
    intro v h <;> simp [withA, base] at h <;> subst h <;> simp

theorem binary_ok (qd sd : Nat) : (binary qd sd : Task α).Ok := by
  refine ⟨⟨?_, by simp [binary], Nat.le_of_ble_eq_true rfl, rfl⟩, Nat.le_of_ble_eq_true rfl, Nat.le_of_ble_eq_true rfl⟩
  show DenseArgs.Fits _ ⟨2, 0, 2⟩
  refine ⟨⟨_, rfl, by simp⟩, ⟨_, rfl, by simp⟩, ⟨_, rfl, by simp⟩, ?_, ?_, ?_, ?_, ?_, ?_, ?_, ?_, ?_, ?_, ?_, ?_⟩ <;>
    intro v h <;> simp [binary, base] at h <;> subst h <;> simp

/-- the programs that print a solution -/
inductive Program (qd sd : Nat) : Task α → Prop
  | warmUp : Program qd sd (warmUp qd sd)
  | warmUpTest : Program qd sd (warmUpTest qd sd)
  | shifted : Program qd sd (shifted qd sd)
  | withA : Program qd sd (withA qd sd)
  | binary : Program qd sd (binary qd sd)
  | sparse : Program qd sd (sparse qd sd)
  | storeSteps : Program qd sd (storeSteps qd sd)
  | osqpOptions (sp : Nat) : Program qd sd (osqpOptions qd sd sp)
  | qpoasesOptions (qp : Nat) : Program qd sd (qpoasesOptions qd sd qp)

theorem Program.ok {qd sd : Nat} {t : Task α} (h : Program qd sd t) : t.Ok := by
  cases h
  · exact warmUp_ok _ _
  · exact warmUpTest_ok _ _
  · exact shifted_ok _ _
  · exact withA_ok _ _
  · exact binary_ok _ _
  · exact sparse_ok _ _
  · exact storeSteps_ok _ _
  · exact osqpOptions_ok _ _ _
  · exact qpoasesOptions_ok _ _ _

end LCQ.WarmUp
