import Verif.Lemmas.PythonScriptsRun
import Verif.Props.SafetySparse
import Mathlib.Tactic.IntervalCases

/-!
# Helper lemmas for C80: warm_up_osqp.py
-/

namespace LCQ.PyScript
open Scalar

variable {α : Type} [Scalar α]

/-- the matrix `Q` of warm_up_osqp.py -/
def osqpQ : CSC α := createCSC 2 2 2 [ofInt 2, ofInt 2] [0, 1] [0, 1, 2]
/-- the matrix `L` -/
def osqpL : CSC α := createCSC 1 2 1 [ofInt 1] [0] [0, 1, 1]
/-- the matrix `R` -/
def osqpR : CSC α := createCSC 1 2 1 [ofInt 1] [0] [0, 0, 1]

/-- the arguments -/
def osqpData : PySparse α := { Q := some osqpQ, g := [ofInt (-2), ofInt (-2)], L := some osqpL, R := some osqpR }

theorem osqpArgs_eq : (osqpArgs : PY (PySparse α)) = .ok osqpData := rfl

theorem is_of {S : CSC α} {m p : Nat} (h1 : S.m = m) (h2 : S.n = p) (h3 : S.p.length = p + 1) (h4 : S.p.getD 0 0 = 0)
    (h5 : ∀ j < p, S.p.getD j 0 ≤ S.p.getD (j + 1) 0) (h6 : S.P p ≤ S.nzmax) (h7 : S.nzmax ≤ S.i.length)
    (h8 : S.nzmax ≤ S.x.length) (h9 : ∀ k < S.P p, 0 ≤ S.i.getD k 0 ∧ S.i.getD k 0 < (m : Int)) : S.Is m p := by
  subst h1 h2
  exact ⟨⟨⟨h3, h4, h5, h6, h7, h8⟩, h9⟩, rfl, rfl⟩

theorem osqpQ_is : (osqpQ : CSC α).Is 2 2 :=
  is_of rfl rfl rfl rfl (show ∀ j < 2, [(0 : Int), 1, 2].getD j 0 ≤ [(0 : Int), 1, 2].getD (j + 1) 0 by decide) (le_refl 2)
    (le_refl 2) (le_refl 2) (show ∀ k < 2, 0 ≤ [(0 : Int), 1].getD k 0 ∧ [(0 : Int), 1].getD k 0 < 2 by decide)

theorem osqpL_is : (osqpL : CSC α).Is 1 2 :=
  is_of rfl rfl rfl rfl (show ∀ j < 2, [(0 : Int), 1, 1].getD j 0 ≤ [(0 : Int), 1, 1].getD (j + 1) 0 by decide) (le_refl 1)
    (le_refl 1) (le_refl 1) (show ∀ k < 1, 0 ≤ [(0 : Int)].getD k 0 ∧ [(0 : Int)].getD k 0 < 1 by decide)

theorem osqpR_is : (osqpR : CSC α).Is 1 2 :=
  is_of rfl rfl rfl rfl (show ∀ j < 2, [(0 : Int), 0, 1].getD j 0 ≤ [(0 : Int), 0, 1].getD (j + 1) 0 by decide) (le_refl 1)
    (le_refl 1) (le_refl 1) (show ∀ k < 1, 0 ≤ [(0 : Int)].getD k 0 ∧ [(0 : Int)].getD k 0 < 1 by decide)

theorem osqp_fits : (osqpData : PySparse α).args.Fits ⟨2, 0, 1⟩ := by
  refine ⟨⟨_, rfl, osqpQ_is⟩, ⟨_, rfl, osqpL_is⟩, ⟨_, rfl, osqpR_is⟩, ?_, ?_, ?_, ?_, ?_, ?_, ?_, ?_, ?_, ?_, ?_, ?_⟩ <;>
    (rintro v ⟨⟩)
  exact le_refl _

/-- the product matrix has entries -/
theorem osqp_sym (hz : isZero (zero +. ofInt 1 *. ofInt 1 : α) = false) : ∃ c, symProdSparse (osqpL : CSC α) osqpR = .ok (some c) := by
  have h := symProdSparse_ok (osqpL : CSC α) osqpR (fun i j => if i = j then zero else zero +. ofInt 1 *. ofInt 1) (by
    intro i hi j hj
    have hi : i < 2 := hi
    have hj : j < 2 := hj
    interval_cases i <;> interval_cases j <;> rfl)
  rw [show (osqpL : CSC α).n = 2 from rfl, if_neg (by simp [ents, symCol, List.range_succ, hz])] at h
  exact ⟨_, h⟩

/-- the run of warm_up_osqp.py -/
theorem osqp_run (e : Env α) {M : Int} (he : AnsBnd e M) (hM : 1001 * M ≤ intMax) (hz : isZero (zero +. ofInt 1 *. ofInt 1 : α) = false)
    (hs : ∀ r, (e.qp 0 r).setup = true ∧ (e.qp 0 r).warmX = true ∧ (e.qp 0 r).warmY = true) (qd sd fuel : Nat) :
    Built (problem qd sd 2 0 1 (WarmUp.opts qd sd 2) : Obj α) ⟨2, 0, 1⟩ ∧
    ∃ o q, pyLoadSparse e (problem qd sd 2 0 1 (WarmUp.opts qd sd 2)) osqpData = .ok (.successfulReturn, o) ∧
      o.d.opts = WarmUp.opts qd sd 2 ∧ runSolver e fuel o = .ok q ∧ (q = none → osqp e qd sd fuel = .ok none) ∧
      ∀ rr r, q = some (rr, r) → ∃ x y, r.s.xk = some x ∧ r.s.yk = some y ∧ x.length = 2 ∧ y.length = 2 ∧
        osqp e qd sd fuel = .ok (some ⟨note rr "Failed to solve LCQP.", x, y,
          [.int r.s.stats.iterTotal, .int r.s.stats.iterOuter, .num r.s.stats.rhoOpt, .int r.s.stats.subproblemIter]⟩) := by
  have hb : Built (problem qd sd 2 0 1 (WarmUp.opts qd sd 2) : Obj α) ⟨2, 0, 1⟩ :=
    { (Built.new (Options.default qd sd : Options α) (nV := 2) (nC := 0) (nComp := 1) ⟨by decide, by decide, by decide⟩) with
      work := fun _ => rfl }
  refine ⟨hb, ?_⟩
  obtain ⟨Q, L, R, C, hQ, hL, hR, _, _, _, hCs, _, h⟩ := loadSparse_ok (e := e) hb.dims hb.nV hb.nComp osqp_fits
  cases hQ
  cases hL
  cases hR
  obtain ⟨c, hc⟩ := osqp_sym hz
  rw [show (osqpL : CSC α).trim = osqpL from rfl, show (osqpR : CSC α).trim = osqpR from rfl, hc] at hCs
  injection hCs with hCs
  subst hCs
  rcases h with ⟨h, _⟩ | ⟨_, h, _⟩ | ⟨_, _, h, _⟩ | ⟨_, _, g, c', hg, _, hc', hl⟩
  · exact nomatch h
  · exact nomatch h
  · rcases h with ⟨_, h, _⟩ | ⟨_, h, _⟩
    · exact nomatch h
    · exact nomatch h
  · obtain ⟨hr, hop, hsp, hca⟩ := hb.loadSparse rfl osqp_fits ⟨fun _ => rfl, fun _ => rfl⟩ hl
    set o := sparseObj (problem qd sd 2 0 1 (WarmUp.opts qd sd 2)) ⟨2, 0, 1⟩ osqpData.args osqpQ osqpL osqpR c' g with ho
    have hoq : o.d.opts.qpSolver = 2 := rfl
    have hold : o.oldBox = false := rfl
    have hnew : o.newBox = false := rfl
    obtain ⟨q, hran⟩ := ran e hr hb.nComp he (small_opts rfl hM) (by rw [hoq, choiceCode_two, hold, hnew, hsp]; rfl)
      (fun _ => hs) fuel
    have hl' : pyLoadSparse e (problem qd sd 2 0 1 (WarmUp.opts qd sd 2)) osqpData = .ok (.successfulReturn, o) := hl
    obtain ⟨g1, g2⟩ := finish_eq (load := fun o => pyLoadSparse e o osqpData) four hl' hran.run
    have hq : osqp e qd sd fuel = finish e fuel (problem qd sd 2 0 1 (WarmUp.opts qd sd 2)) (fun o => pyLoadSparse e o osqpData) four := by
      rw [osqp, osqpArgs_eq, py_bind, osqp_opts, py_bind]
    refine ⟨o, q, hl', hop, hran.run, fun h => by rw [hq]; exact g1 h, ?_⟩
    rintro rr r rfl
    obtain ⟨x, y, hx, hy, lx, ly, hf⟩ := hran.out _ rfl
    refine ⟨x, y, hx, hy, lx, ly, ?_⟩
    have h5 := g2 _ rfl
    rw [hf _ _ _ (ask_four _), py_bind] at h5
    rw [hq]
    exact h5

end LCQ.PyScript
