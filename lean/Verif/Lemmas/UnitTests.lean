import Verif.Model.UnitTests
import Verif.Lemmas.Convert
import Verif.Props.SafetyMixed
import Verif.Props.Choice
import Verif.Props.Run
import Verif.Props.WarmUp
import Verif.Lemmas.Reload

/-!
# Helper lemmas for C81: the unit tests
-/

namespace LCQ.TestSuite
open Scalar

variable {α : Type} [Scalar α]

/-! ## round trip -/

/-- an entry written by the test -/
def entry (rand : Nat → Nat) (j : Nat) : α := if rand j % 4 = 0 then ofInt (rand j % 9 : Nat) else zero

theorem fill_ok (rand : Nat → Nat) (k : Nat) : (fill rand k : M (List α)) = .ok (tab 10 fun j => entry rand (k + j)) := by
  unfold fill
  refine loop_eq (fun i => tab 10 fun j => if j < i then entry rand (k + j) else (zero : α)) 10 _ _ ?_ fun i hi => ?_
  · simp [tab, List.replicate]
  · have hl : i < (tab 10 fun j => if j < i then entry rand (k + j) else (zero : α)).length := by simpa using hi
    dsimp only
    split
    · rename_i h4
      rw [wr_ok hl]
      refine congrArg Except.ok (List.ext_getElem (by simp) fun j h1 h2 => ?_)
      rw [List.getElem_set]
      simp only [tab, List.getElem_map, List.getElem_range]
      split
      · rename_i hij
        subst hij
        rw [if_pos (by omega), entry, if_pos h4]
      · split <;> split <;> first | rfl | omega
    · rename_i h4
      refine congrArg Except.ok (List.ext_getElem (by simp) fun j h1 h2 => ?_)
      simp only [tab, List.getElem_map, List.getElem_range]
      split <;> split <;> first | rfl | omega | skip
      have : j = i := by omega
      subst this
      rw [entry, if_neg h4]

theorem compare_ok {Q C : List α} (hQ : Q.length = 10) (hC : C.length = 10)
    (h : ∀ j < 10, (gt C j <=. gt Q j) = true ∧ (gt Q j <=. gt C j) = true) : compare Q C = .ok true := by
  unfold compare
  refine loop_eq (fun _ => true) 10 _ _ rfl fun i hi => ?_
  rw [rd_ok (by omega), ok_bind, rd_ok (by omega), ok_bind]
  obtain ⟨h1, h2⟩ := h i hi
  simp [h1, h2]

/-- what the small numbers of an arithmetic have to satisfy -/
structure Small9 (α : Type) [Scalar α] : Prop where
  refl : ∀ k < 9, ((ofInt (k : Nat) : α) <=. ofInt (k : Nat)) = true
  zero : ∀ k < 9, ((Scalar.zero : α) <. ofInt (k : Nat)) = false → ((ofInt (k : Nat) : α) <. Scalar.zero) = false →
    ((Scalar.zero : α) <=. ofInt (k : Nat)) = true ∧ ((ofInt (k : Nat) : α) <=. Scalar.zero) = true

theorem entry_eq (rand : Nat → Nat) (j : Nat) : ∃ k < 9, (entry rand j : α) = ofInt (k : Nat) := by
  unfold entry
  split
  · exact ⟨_, Nat.mod_lt _ (by omega), rfl⟩
  · exact ⟨0, by omega, rfl⟩

theorem backOnce_ok (h : Small9 α) (rand : Nat → Nat) (k : Nat) : backOnce (α := α) rand k = .ok true := by
  unfold backOnce
  rw [fill_ok, ok_bind]
  obtain ⟨S, h1, _, _, _, _, h2⟩ := dns_csc_dns (tab 10 fun j => (entry rand (k + j) : α)) 2 5 (by simp)
  rw [h1, ok_bind, h2, ok_bind, deref_some, ok_bind]
  refine compare_ok (by simp) (by simp) fun j hj => ?_
  have hd : j = j / 5 * 5 + j % 5 := by omega
  have e1 : gt (tab 10 fun j => (entry rand (k + j) : α)) j = entry rand (k + j) := gt_tab _ hj
  have e2 := gt_grid (m := 2) (p := 5) (i := j / 5) (j := j % 5) (fun r c =>
        if (zero <. gt (tab 10 fun j => (entry rand (k + j) : α)) (r * 5 + c)) || (gt (tab 10 fun j => (entry rand (k + j) : α)) (r * 5 + c) <. zero)
        then gt (tab 10 fun j => (entry rand (k + j) : α)) (r * 5 + c) else zero) (by omega) (by omega)
  rw [← hd, e1] at e2
  rw [e1, e2]
  obtain ⟨v, hv, e3⟩ := entry_eq (α := α) rand (k + j)
  rw [e3]
  split
  · exact ⟨h.refl v hv, h.refl v hv⟩
  · rename_i hc
    simp only [Bool.or_eq_true, not_or, Bool.not_eq_true] at hc
    exact h.zero v hv hc.1 hc.2

/-! ## the object -/

theorem opts_iter (qd sd : Nat) : (opts qd sd : Options α).maxIter = 1000 ∧ (opts qd sd : Options α).qpSolver = 0 := ⟨rfl, rfl⟩

theorem small {N : Int} (hN : 1001 * N ≤ intMax) {o : Options α} (h : o.maxIter = 1000) : Small o N :=
  ⟨by rw [h]; decide, by rw [h]; decide, by rw [h]; exact hN⟩

theorem base_pair : (WarmUp.base : DenseArgs α).lbL = none ↔ (WarmUp.base : DenseArgs α).lbR = none := Iff.rfl

theorem load_base (e : Env α) {o : Obj α} (hb : Built o ⟨2, 0, 1⟩) :
    ∃ o', loadDense e o WarmUp.base = .ok (.successfulReturn, o') := by
  obtain ⟨r, o', h1, h2⟩ := C15_codes e o _ (WarmUp.base : DenseArgs α) hb.dims hb.nV hb.nComp (WarmUp.base_fits rfl rfl)
  rw [h1, h2]
  simp [WarmUp.base, HasMinusInf]

/-- what a run with a fitting qpOASES solver can return -/
def runCodes : List RV := [.maxIterationsReached, .maxPenaltyReached, .subproblemSolverError]

theorem run_codes {e : Env α} {n : Dims} {o : Obj α} {fuel : Nat} {r : RV × Obj α} (hn : o.d.dims = some n) (hV : n.nV ≠ 0)
    (hq : (o.d.opts.qpSolver = 0 ∧ o.d.sparse = false) ∨ (o.d.opts.qpSolver = 1 ∧ o.d.sparse = true))
    (h : runSolver e fuel o = .ok (some r)) :
    r.1 = .successfulReturn ∨ (r.1 ∈ runCodes ∧ (r.1 = .subproblemSolverError → r.2.s.stats.exitFlag ≠ 0)) := by
  have hcode : choiceCode o.d.opts.qpSolver o.d.sparse o.oldBox o.newBox = .successfulReturn := by
    rcases hq with ⟨h1, h2⟩ | ⟨h1, h2⟩ <;> rw [h1, h2]
    · rw [choiceCode_zero]; rfl
    · rw [choiceCode_one]; rfl
  rcases C19_codes h with ⟨i, hi, hne, _⟩ | ⟨i, hi, hok, _, ⟨h1, _⟩ | ⟨h1, _⟩ | ⟨h1, _⟩ | ⟨h1, _⟩⟩
  · exact absurd ((C33_code hn hV hi).trans hcode) hne
  · exact Or.inl h1
  · right; rw [h1]; simp [runCodes]
  · right; rw [h1]; simp [runCodes]
  · right
    have hd := run_data h hi hok
    have hno : ∀ Q A, r.2.d.sub ≠ some (.osqp Q A) := fun Q A hs => by
      rw [hd] at hs
      obtain ⟨hl, _⟩ := init_osqp hi hok hs
      exact ((initializeSolver_duals hn hV hi hok).2.1.mpr (by omega)) hl
    obtain ⟨rv, o'⟩ := r
    dsimp only at *
    cases h1 with
    | answer sub req hs hreq hc hbad hx =>
      refine ⟨by simp [runCodes], fun _ => ?_⟩
      cases sub with
      | osqp Q A => exact absurd hs (hno Q A)
      | dense => rw [hx]; exact hbad
      | sparse => rw [hx]; exact hbad
    | osqp rv Q A hs _ => exact absurd hs (hno Q A)

/-! ## the first subproblem -/

/-- the initialisation of an object ready for a dense run -/
theorem init_form (e : Env α) {n : Dims} {o : Obj α} (hR : Ready o n) (hq : o.d.opts.qpSolver = 0) (hs : o.d.sparse = false) :
    ∃ Q A g c gp, initPhi o.d = .ok { o.d with phiConst := c, gPhi := gp } ∧
      initializeSolver e o = .ok (.successfulReturn, initDense o n Q A g c gp) := by
  obtain ⟨c, gp, hphi, _⟩ := initPhi_ok hR.dims hR.L hR.R hR.gPhi hR.pair
  have lQ := hR.Q
  have lA := hR.A
  rw [MatOK, if_neg (by simp [hs])] at lQ lA
  obtain ⟨Q, hQ, _⟩ := lQ
  obtain ⟨A, hA, _⟩ := lA
  obtain ⟨g, hg, _⟩ := hR.g
  exact ⟨Q, A, g, c, gp, hphi, initializeSolver_dense (e := e) hR hq hs hQ hA hg hphi⟩

/-- if the first answer is not a success, the run ends with an error of the subproblem solver -/
theorem first_fails {e : Env α} {n : Dims} {o : Obj α} (hR : Ready o n) (hq : o.d.opts.qpSolver = 0) (hs : o.d.sparse = false)
    {N : Int} (he : AnsBnd e N) (hsm : Small o.d.opts N) {lA uA : List α} (hl : o.d.lbA = some lA) (hu : o.d.ubA = some uA)
    (hbad : ∀ q : Req α, q.init = true → q.lbA = lA → q.ubA = uA → (e.qp o.s.calls q).ret ≠ 0) (fuel : Nat) :
    ∃ r, runSolver e fuel o = .ok (some (.subproblemSolverError, r)) := by
  obtain ⟨q, h1, _⟩ := run_dense hR hq hs he hsm fuel
  obtain ⟨Q, A, g, c, gp, _, hi⟩ := init_form e hR hq hs
  obtain ⟨_, hl', ll⟩ := hR.lbA
  obtain ⟨_, hu', lu⟩ := hR.ubA
  rw [hl] at hl'; rw [hu] at hu'
  injection hl' with hl'; injection hu' with hu'
  subst hl' hu'
  have h2 := h1
  rw [runSolver, hi, ok_bind, if_neg (by simp)] at h2
  obtain ⟨f, hf, h2⟩ := bind_eq_ok.mp h2
  obtain ⟨gk, w, hw, hc⟩ := firstStep_inv hf
  obtain ⟨z, hz, hwz, _⟩ := solveQP_inv hw
  have hret : z.1 = .subproblemSolverError := by
    rw [subSolve] at hz
    obtain ⟨sub, hsub, hz⟩ := bind_eq_ok.mp hz
    have : sub = .dense n.nV n.nA Q A := by
      simp only [initDense, initd_some] at hsub
      injection hsub with hsub
      exact hsub.symm
    subst this
    simp only [qpoasesSolve] at hz
    obtain ⟨_, _, hz⟩ := bind_eq_ok.mp hz
    obtain ⟨_, _, hz⟩ := bind_eq_ok.mp hz
    rw [show (initDense o n Q A g c gp).d.lbA = some lA from hl, deref_some, ok_bind, copyN_ok ll, ok_bind,
      show (initDense o n Q A g c gp).d.ubA = some uA from hu, deref_some, ok_bind, copyN_ok lu, ok_bind] at hz
    obtain ⟨_, _, hz⟩ := bind_eq_ok.mp hz
    obtain ⟨_, _, hz⟩ := bind_eq_ok.mp hz
    obtain ⟨_, _, hz⟩ := bind_eq_ok.mp hz
    obtain ⟨_, _, hz⟩ := bind_eq_ok.mp hz
    injection hz with hz
    rw [← hz]
    dsimp only
    rw [if_pos]
    exact hbad _ rfl rfl rfl
  have hw1 : w.1 = .subproblemSolverError := hwz.trans hret
  rcases hc with ⟨_, rfl⟩ | ⟨h, _⟩
  · dsimp only at h2
    rw [h1, ← h2, hw1]
    exact ⟨_, rfl⟩
  · rw [hw1] at h
    cases h

theorem infeasible_fits : (infeasible : DenseArgs α).Fits ⟨2, 1, 1⟩ := by
  have := WarmUp.base_fits (α := α) (n := ⟨2, 1, 1⟩) rfl rfl
  refine { this with A := ?_, lbA := ?_, ubA := ?_ } <;>
    intro v h <;> simp [infeasible] at h <;> subst h <;> simp

theorem load_infeasible (e : Env α) {o : Obj α} (hb : Built o ⟨2, 1, 1⟩) :
    ∃ o', loadDense e o infeasible = .ok (.successfulReturn, o') := by
  obtain ⟨r, o', h1, h2⟩ := C15_codes e o _ (infeasible : DenseArgs α) hb.dims hb.nV hb.nComp infeasible_fits
  rw [h1, h2]
  simp [infeasible, WarmUp.base, HasMinusInf]

/-! ## objects used again -/

/-- no lower complementarity bounds and no box bounds are stored -/
structure Clean (o : Obj α) : Prop where
  lbL : o.d.lbL = none
  lbR : o.d.lbR = none
  gPhi : o.d.gPhi = none
  phiConst : o.d.phiConst = zero
  lbTmp : o.d.lbTmp = none
  ubTmp : o.d.ubTmp = none

theorem start_clean (qd sd nC : Nat) : Clean (start qd sd nC : Obj α) := by
  have : (start qd sd nC : Obj α).d = { (Obj.blank (opts qd sd : Options α)).d with dims := some ⟨2, nC, 1⟩ } := by
    simp only [start, setOptions, Obj.new]
    rw [if_neg (by omega), if_neg (by omega), if_neg (by omega)]
    simp [Obj.blank, Data.blank]
  rw [show (start qd sd nC : Obj α) = ⟨(start qd sd nC : Obj α).d, (start qd sd nC : Obj α).s⟩ from rfl, this]
  exact ⟨rfl, rfl, rfl, rfl, rfl, rfl⟩

theorem Clean.load {e : Env α} {n : Dims} {o o' : Obj α} (h : Clean o) (hb : Built o n) {a : DenseArgs α} (hf : a.Fits n)
    (hlL : a.lbL = none) (hlR : a.lbR = none) (hlb : a.lb = none) (hub : a.ub = none)
    (hl : loadDense e o a = .ok (.successfulReturn, o')) : Clean o' := by
  rcases loadDense_ok (e := e) hb.dims hb.nV hb.nComp hf with ⟨_, _, h'⟩ | ⟨_, _, _, h'⟩ | ⟨_, _, _, _, h'⟩ |
    ⟨_, _, _, _, Q, g, L, R, hQ, hg, hL, hR, _, _, _, _, h'⟩
  · rw [h'] at hl; injection hl with hl; injection hl with hl _; cases hl
  · rw [h'] at hl; injection hl with hl; injection hl with hl _; cases hl
  · rw [h'] at hl; injection hl with hl; injection hl with hl _; cases hl
  rw [h'] at hl
  injection hl with hl; injection hl with _ hl
  subst hl
  unfold denseObj
  refine ⟨?_, ?_, ?_, ?_, ?_, ?_⟩ <;> dsimp only
  · rw [hlL]; simpa [bndMem] using h.lbL
  · rw [hlR]; simpa [bndMem] using h.lbR
  · exact h.gPhi
  · exact h.phiConst
  · rw [hlb]; simpa [bndMem] using h.lbTmp
  · rw [hub]; simpa [bndMem] using h.ubTmp

theorem Clean.run {e : Env α} {n : Dims} {o : Obj α} (h : Clean o) (hR : Ready o n) (hq : o.d.opts.qpSolver = 0)
    (hs : o.d.sparse = false) {fuel : Nat} {r : RV × Obj α} (hr : runSolver e fuel o = .ok (some r)) : Clean r.2 := by
  obtain ⟨Q, A, g, c, gp, hphi, hi⟩ := init_form e hR hq hs
  have hdat := run_data hr hi rfl
  rw [initPhi, if_pos ⟨h.lbL, h.lbR⟩] at hphi
  injection hphi with hphi
  have e1 : o.d.phiConst = c := congrArg Data.phiConst hphi
  have e2 : o.d.gPhi = gp := congrArg Data.gPhi hphi
  rw [show r.2 = ⟨r.2.d, r.2.s⟩ from rfl, hdat]
  unfold initDense
  exact ⟨h.lbL, h.lbR, e2.symm.trans h.gPhi, e1.symm.trans h.phiConst, rfl, rfl⟩

/-- one pass of RunWarmUp up to the end of the run -/
theorem warm_pass (e : Env α) {N : Int} (he : AnsBnd e N) (hN : 1001 * N ≤ intMax) {qd sd : Nat} (fuel : Nat) {o : Obj α}
    (hb : Built o ⟨2, 0, 1⟩) (ho : o.d.opts = opts qd sd) :
    ∃ o1 q, loadDense e o WarmUp.base = .ok (.successfulReturn, o1) ∧ Ready o1 ⟨2, 0, 1⟩ ∧ o1.d.opts = opts qd sd ∧
      o1.d.sparse = false ∧ runSolver e fuel o1 = .ok q ∧ ∀ r, q = some r → Built r.2 ⟨2, 0, 1⟩ ∧ r.2.d.opts = opts qd sd ∧
        (r.1 = .successfulReturn ∨ r.1 ∈ runCodes) ∧ ∃ t x0 x1 y0 y1 y2 y3, r.2.s.algo = some t ∧ r.2.s.xk = some [x0, x1] ∧
          r.2.s.yk = some [y0, y1, y2, y3] ∧ r.2.d.dims = some ⟨2, 0, 1⟩ ∧ r.2.d.nDuals = some 4 := by
  obtain ⟨o1, h1⟩ := load_base e hb
  obtain ⟨hR, h2, h3⟩ := hb.load (WarmUp.base_fits rfl rfl) base_pair h1
  rw [ho] at h2
  obtain ⟨q, h4, h5⟩ := run_dense hR (by rw [h2]; rfl) h3 he (small hN (by rw [h2]; rfl)) fuel
  refine ⟨o1, q, h1, hR, h2, h3, h4, ?_⟩
  rintro r rfl
  obtain ⟨k1, k2, k3, k4, ⟨y, ky, ly⟩, t, kt⟩ := h5 r rfl
  obtain ⟨x, kx, lx⟩ := k1.xk
  refine ⟨k1.built k3 (by simp), k2.trans h2, ?_, ?_⟩
  · rcases run_codes hR.dims hR.nV (Or.inl ⟨by rw [h2]; rfl, h3⟩) h4 with h | h
    · exact Or.inl h
    · exact Or.inr h.1
  · match x, lx, y, ly with
    | [x0, x1], _, [y0, y1, y2, y3], _ => exact ⟨t, x0, x1, y0, y1, y2, y3, kt, kx, ky, k1.dims, k4⟩

/-- the getters after a successful run -/
theorem warm_get (e : Env α) {qd sd fuel left : Nat} {o o1 r : Obj α} {t : AlgStat} {x0 x1 y0 y1 y2 y3 : α}
    (h1 : loadDense e o WarmUp.base = .ok (.successfulReturn, o1))
    (h2 : runSolver e fuel o1 = .ok (some (.successfulReturn, r))) (ht : r.s.algo = some t) (hx : r.s.xk = some [x0, x1])
    (hy : r.s.yk = some [y0, y1, y2, y3]) (hn : r.d.dims = some ⟨2, 0, 1⟩) (hd : r.d.nDuals = some 4) {xs ys : List α}
    (lx : xs.length = 2) (ly : ys.length = 4) :
    warmFrom e qd sd fuel (left + 1) o xs ys =
      if !found (opts qd sd : Options α).statTol x0 x1 then .ok (some (.point [x0, x1]))
      else if !(stat (opts qd sd : Options α).statTol x0 y0 y2 && stat (opts qd sd : Options α).statTol x1 y1 y3) then
        .ok (some (.stat [x0, x1] [y0, y1, y2, y3]))
      else warmFrom e qd sd fuel left r [x0, x1] [y0, y1, y2, y3] := by
  have g1 := C38_primal r ⟨2, 0, 1⟩ t [x0, x1] xs hn ht hx (by simp) (by simp [lx])
  have g2 := C38_dual r 4 t [y0, y1, y2, y3] ys hd ht hy (by simp) (by simp [ly])
  rw [List.take_of_length_le (by simp), List.drop_of_length_le (by simp [lx]), List.append_nil] at g1
  rw [List.take_of_length_le (by simp), List.drop_of_length_le (by simp [ly]), List.append_nil] at g2
  rw [warmFrom, h1, ok_bind, if_neg (by simp), h2, ok_bind]
  dsimp only
  rw [if_neg (by simp), g1, ok_bind, g2, ok_bind]
  rfl

end LCQ.TestSuite
