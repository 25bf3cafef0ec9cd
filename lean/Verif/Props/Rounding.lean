import Verif.Lemmas.RoundLoad
import Verif.Lemmas.Binary64

/-!
# C57: what success means when the arithmetic rounds

The theorems of C20, C21 and C25 are about exact arithmetic.  Here the arithmetic rounds (`Rounds`, see
`Verif/Spec/Rounding.lean`).  The problem is the one which the arguments of the dense loader stand for, without any
rounding.  What was tested differs from the exact quantity by at most `(1 + u)^k - 1` times the magnitude of the
quantity, where `k` depends on the sizes of the problem only; `C57_gamma` bounds this factor by `k*u/(1 - k*u)`.
-/

set_option linter.unusedSectionVars false

namespace LCQ
open Scalar
open scoped Matrix

variable {α : Type} [Scalar α] {K : Type} [Field K] [LinearOrder K] [IsStrictOrderedRing K] {u t : K}
  {n : Dims} {e : Env α} {o o1 o' : Obj α} {a : DenseArgs α} {fuel : Nat}

/-- no lower complementarity bounds have been loaded so far -/
def LowUnset (o : Obj α) : Prop := o.d.lbL = none ∧ o.d.lbR = none ∧ o.d.gPhi = none ∧ o.d.phiConst = zero

theorem LowUnset.new (opts : Options α) {nV nC nComp : Int} (h : 1 ≤ nV ∧ 1 ≤ nComp ∧ 0 ≤ nC) :
    LowUnset (Obj.new opts nV nC nComp) := by
  unfold Obj.new
  dsimp only
  rw [if_neg (by omega), if_neg (by omega), if_neg (by omega)]
  exact ⟨rfl, rfl, rfl, rfl⟩

/-- an object is constructed, a dense problem is loaded and solved successfully -/
structure Solved (e : Env α) (fuel : Nat) (o : Obj α) (n : Dims) (a : DenseArgs α) (o1 o' : Obj α) : Prop where
  built : Built o n
  low : LowUnset o
  fits : a.Fits n
  pair : a.lbL = none ↔ a.lbR = none
  load : loadDense e o a = .ok (.successfulReturn, o1)
  run : runSolver e fuel o1 = .ok (some (.successfulReturn, o'))

/-- the last pass of a successful run -/
theorem Solved.last (F : Rounds α K u t) (h : Solved e fuel o n a o1 o') :
    DataA F o'.d (F.prob n a) ∧ o'.d.opts = o.d.opts ∧
    ∃ (s w w' : St α) (v m rho : α) (st x y : List α), Head o'.d n n.nV s ∧ DenseQk o'.d n s ∧ o'.d.boxOff = some n.nV ∧
      getPhi o'.d o'.s = .ok v ∧ (v <. o'.d.opts.complTol) = true ∧
      o'.s.statk = some st ∧ maxAbs st n.nV = .ok m ∧ (m <. o'.d.opts.statTol) = true ∧
      updateStationarity o'.d s = .ok w ∧ w.statk = some st ∧ s.xk = some x ∧ o'.s.xk = some x ∧ s.rho = some rho ∧
      o'.s.rho = some rho ∧ s.outer = o'.s.outer ∧ s.ykA = o'.s.ykA ∧ s.yk = some y ∧ w'.yk = some y ∧
      w'.xk = some x ∧ w'.rho = some rho ∧ transformDuals e o'.d w' = .ok { w' with yk := o'.s.yk } := by
  obtain ⟨hR, hopt, hsp⟩ := h.built.load h.fits h.pair h.load
  obtain ⟨off, s0, s, w, w', v, m, st, hd, hat, hs, ⟨x', hx'⟩, h1, h2, h3, h4, h5, h6, h7, h8, h9, h10, h11, h12, h13, h14, h15⟩ :=
    success_head hR h.run
  have hqk := C24_dense hR hsp hat
  obtain ⟨s1, ⟨i, hi, hi1, hdi, _⟩, _⟩ := hat
  have hD := load_apx F h.built h.low h.fits h.pair h.load hi hi1
  rw [← hdi] at hD
  have hopt' : o'.d.opts = o.d.opts := by
    obtain ⟨nd, bo, l, u', sub, y, w, gt', pc, gp, hshape⟩ := initializeSolver_ok hi hi1
    rw [← hopt, hdi, hshape]
  have hoff : off = n.nV := by
    rcases hd.sub with ⟨_, _, _, ho⟩ | ⟨_, _, _, ho⟩ | ⟨_, _, _, _, _, _, hl, _⟩
    · exact ho
    · exact ho
    · exact absurd hl hD.lb
  subst hoff
  obtain ⟨x, hx, _⟩ := hs.xk
  obtain ⟨rho, hr⟩ := hs.rho
  obtain ⟨y, hy, _⟩ := hs.y
  refine ⟨hD, hopt', s, w, w', v, m, rho, st, x, y, hs, ?_, hd.boxOff, h1, h2, h3, h4, h5, h6, h7, hx, by rw [← h8, hx], hr,
    by rw [← h9, hr], h10, h11, hy, by rw [h12, hy], by rw [h13, hx], by rw [h14, hr], h15⟩
  rw [hx']
  exact hqk

/-- C57: the tested complementarity value approximates the complementarity violation at the returned point. -/
theorem C57_phi (F : Rounds α K u t) (h : Solved e fuel o n a o1 o') :
    ∃ x v, o'.s.xk = some x ∧ x.length = n.nV ∧ getPhi o'.d o'.s = .ok v ∧ (v <. o.d.opts.complTol) = true ∧
      ∀ w, F.val v = some w → |w - (F.prob n a).phi (F.vec n.nV x)| ≤
        ((1 + u) ^ (2 * n.nV + 2 * n.nComp + 6) - 1) * (F.prob n a).magPhi t (F.vec n.nV x) := by
  obtain ⟨hD, ho, s, w, w', v, m, rho, st, x, y, hs, hq, hoff, h1, h2, h3, h4, h5, h6, h7, h8, h9, h10, h11, h12, h13, h14,
    h15, h16, h17, h18⟩ := h.last F
  have lx : x.length = n.nV := by
    obtain ⟨x', h', l⟩ := hs.xk
    rw [h8] at h'
    injection h' with h'
    rw [h']; exact l
  exact ⟨x, v, h9, lx, h1, by rw [← ho]; exact h2, (getPhi_apx hD h9 lx h1).2⟩

/-- C57: at the returned point the complementarity violation is below its tolerance, up to rounding errors, if the
value computed for it is finite. -/
theorem C57_complementary (F : Rounds α K u t) (h : Solved e fuel o n a o1 o') {tc : K}
    (htc : F.val o.d.opts.complTol = some tc) (hfin : ∀ v, getPhi o'.d o'.s = .ok v → F.IsFin v) :
    ∃ x, o'.s.xk = some x ∧ x.length = n.nV ∧ (F.prob n a).phi (F.vec n.nV x) <
      tc + ((1 + u) ^ (2 * n.nV + 2 * n.nComp + 6) - 1) * (F.prob n a).magPhi t (F.vec n.nV x) := by
  obtain ⟨x, v, hx, lx, hv, hlt, hb⟩ := C57_phi F h
  refine ⟨x, hx, lx, ?_⟩
  obtain ⟨w, hw⟩ := Option.ne_none_iff_exists'.mp (hfin v hv)
  rw [F.lt _ _ _ _ hw htc] at hlt
  have h1 : w < tc := of_decide_eq_true hlt
  have h2 := abs_le.mp (hb w hw)
  linarith

/-- the stationarity test and the returned multipliers, together -/
theorem Solved.stat (F : Rounds α K u t) (h : Solved e fuel o n a o1 o') {ts : K}
    (hts : F.val o.d.opts.statTol = some ts) (hfin : ∀ st, o'.s.statk = some st → ∀ c ∈ st, F.IsFin c) :
    ∃ (x yA yr : List α) (rho : α) (y : Fin (n.nV + n.nA) → K) (b : Bool), o'.s.xk = some x ∧ x.length = n.nV ∧
      o'.s.rho = some rho ∧
      o'.s.ykA = some yA ∧ yA.length = n.nA ∧ o'.s.yk = some yr ∧ yr.length = n.nV + n.nA ∧
      yLin y = F.vec n.nA yA ∧ yBox y = F.vec n.nV yr ∧ (b = false → o'.s.outer = some 0 ∨ (F.prob n a).gPhi = 0) ∧
      (o'.s.outer = some 0 → b = false) ∧
      (∀ i, |((F.prob n a).penResidual (F.v rho) (F.vec n.nV x) y - if b then 0 else F.v rho • (F.prob n a).gPhi) i| <
        ts + ((1 + u) ^ (n.nV + n.nC + 2 * n.nComp + 11) - 1) * (F.prob n a).magStat t (F.v rho) (F.vec n.nV x) y i) ∧
      ((∀ c ∈ yr, F.IsFin c) → ∀ i, |(F.prob n a).residual (F.vec n.nV x) (F.vec (n.nV + n.nA) yr) i -
        ((F.prob n a).penResidual (F.v rho) (F.vec n.nV x) y - F.v rho • (F.prob n a).gPhi) i| ≤
        ((1 + u) ^ (n.nV + 3) - 1) * (F.prob n a).magDual t (F.v rho) (F.vec n.nV x) y i) := by
  obtain ⟨hD, ho, s, w, w', v, m, rho, st, x, y, hs, hq, hoff, h1, h2, h3, h4, h5, h6, h7, h8, h9, h10, h11, h12, h13, h14,
    h15, h16, h17, h18⟩ := h.last F
  have lx : x.length = n.nV := by
    obtain ⟨x', h', l⟩ := hs.xk
    rw [h8] at h'
    injection h' with h'
    rw [h']; exact l
  obtain ⟨y', hy', ly, hya⟩ := hs.y
  rw [h14] at hy'
  injection hy' with hy'
  subst hy'
  obtain ⟨b, hb1, hb2, st', hst', lst, ast⟩ := stat_apx hD hs hq h10 h8 h14 h6
  rw [h7] at hst'
  injection hst' with hst'
  subst hst'
  obtain ⟨yr, hyr, lyr, heq, ayr⟩ := duals_apx hD hoff h17 h16 lx h15 ly h18
  refine ⟨x, _, yr, rho, F.vec (n.nV + n.nA) y, b, h9, lx, h11, by rw [← h13]; exact hya, by simp, hyr, lyr, ?_, ?_, ?_, ?_, ?_, ?_⟩
  · ext i
    show F.v (gt y (n.nV + i)) = F.v (gt (tab n.nA fun i => gt y (n.nV + i)) i)
    rw [gt_tab _ i.2]
  · ext i
    have : yBox (F.vec (n.nV + n.nA) y) i = F.v (gt y i) := by rw [yBox, dif_pos rfl]; rfl
    rw [this]
    show F.v (gt y i) = F.v (gt yr i)
    rw [heq i (by have := i.2; omega)]
  · rw [← h12]; exact hb1
  · rw [← h12]; exact hb2
  · have hval : ∀ i < n.nV, F.val (gt st i) = some (F.v (gt st i)) := by
      intro i hi
      have : gt st i ∈ st := gt_mem (by omega)
      obtain ⟨c, hc⟩ := Option.ne_none_iff_exists'.mp (hfin st h3 _ this)
      rw [hc, Rounds.v, hc]; rfl
    obtain ⟨z, hz, hzb⟩ := maxAbs_apx F (by omega) _ hval h4
    rw [ho, F.lt _ _ _ _ hz hts] at h5
    have h5 : z < ts := of_decide_eq_true h5
    intro i
    have e1 := (ast i).2 _ (hval i i.2)
    have e2 := hzb i i.2
    have e3 := abs_sub_abs_le_abs_sub (((F.prob n a).penResidual (F.v rho) (F.vec n.nV x) (F.vec (n.nV + n.nA) y) -
      if b then 0 else F.v rho • (F.prob n a).gPhi) i) (F.v (gt st i))
    rw [abs_sub_comm] at e3
    linarith
  · intro hf i
    apply residual_apx
    · ext j
      rw [yBox, yBox, dif_pos rfl, dif_pos rfl]
      show F.v (gt yr j) = F.v (gt y j)
      rw [heq j (by have := j.2; omega)]
    · ext j
      show F.v (gt yr (n.nV + j)) = F.v (gt y (n.nV + j))
      rw [heq _ (by have := j.2; omega)]
    · intro j
      have hj : j.1 < yr.length := by rw [lyr]; exact j.2
      have hm : gt yr j ∈ yr := gt_mem hj
      obtain ⟨c, hc⟩ := Option.ne_none_iff_exists'.mp (hf _ hm)
      have : F.vec (n.nV + n.nA) yr j = c := by
        show F.v (gt yr j) = c
        rw [Rounds.v, hc]; rfl
      rw [this]
      exact (ayr j).2 c hc

/-- C57: at the returned point, if a penalty update has been made or the lower complementarity bounds have no linear
part, the gradient of the penalised Lagrangian is below the stationarity tolerance, up to rounding errors, if all
entries of the stationarity vector are finite.  The multipliers of the linear constraints are kept in `yk_A`, those of
the box constraints are the first part of the returned multipliers. -/
theorem C57_certified (F : Rounds α K u t) (h : Solved e fuel o n a o1 o') {ts : K}
    (hts : F.val o.d.opts.statTol = some ts) (hfin : ∀ st, o'.s.statk = some st → ∀ c ∈ st, F.IsFin c)
    (hc : o'.s.outer ≠ some 0 ∨ (F.prob n a).gPhi = 0) :
    ∃ (x yA yr : List α) (rho : α) (y : Fin (n.nV + n.nA) → K), o'.s.xk = some x ∧ x.length = n.nV ∧ o'.s.rho = some rho ∧
      o'.s.ykA = some yA ∧ yA.length = n.nA ∧ o'.s.yk = some yr ∧ yr.length = n.nV + n.nA ∧
      yLin y = F.vec n.nA yA ∧ yBox y = F.vec n.nV yr ∧
      ∀ i, |(F.prob n a).penResidual (F.v rho) (F.vec n.nV x) y i| <
        ts + ((1 + u) ^ (n.nV + n.nC + 2 * n.nComp + 11) - 1) * (F.prob n a).magStat t (F.v rho) (F.vec n.nV x) y i := by
  obtain ⟨x, yA, yr, rho, y, b, h1, h2, h3, h4, h5, h6, h7, h8, h9, hb1, hb2, h10, _⟩ := h.stat F hts hfin
  refine ⟨x, yA, yr, rho, y, h1, h2, h3, h4, h5, h6, h7, h8, h9, fun i => ?_⟩
  have hz : (if b then 0 else F.v rho • (F.prob n a).gPhi) = 0 := by
    cases b
    · rcases hc with hc | hc
      · rcases hb1 rfl with h | h
        · exact absurd h hc
        · simp [h]
      · simp [hc]
    · simp
  have := h10 i
  rwa [hz, sub_zero] at this

/-- C57: the returned point and the returned multipliers satisfy the stationarity condition of the problem up to the
tolerance and rounding errors, if the lower complementarity bounds have no linear part or if no penalty update has been
made, and if all numbers involved are finite. -/
theorem C57_stationary (F : Rounds α K u t) (h : Solved e fuel o n a o1 o') {ts : K}
    (hts : F.val o.d.opts.statTol = some ts) (hfin : ∀ st, o'.s.statk = some st → ∀ c ∈ st, F.IsFin c)
    (hfin' : ∀ yr, o'.s.yk = some yr → ∀ c ∈ yr, F.IsFin c)
    (hc : (F.prob n a).gPhi = 0 ∨ o'.s.outer = some 0) :
    ∃ (x yA yr : List α) (rho : α) (y : Fin (n.nV + n.nA) → K), o'.s.xk = some x ∧ x.length = n.nV ∧ o'.s.rho = some rho ∧
      o'.s.ykA = some yA ∧ yA.length = n.nA ∧ o'.s.yk = some yr ∧ yr.length = n.nV + n.nA ∧
      yLin y = F.vec n.nA yA ∧ yBox y = F.vec n.nV yr ∧
      ∀ i, |(F.prob n a).residual (F.vec n.nV x) (F.vec (n.nV + n.nA) yr) i| <
        ts + ((1 + u) ^ (n.nV + n.nC + 2 * n.nComp + 11) - 1) * (F.prob n a).magStat t (F.v rho) (F.vec n.nV x) y i +
        ((1 + u) ^ (n.nV + 3) - 1) * (F.prob n a).magDual t (F.v rho) (F.vec n.nV x) y i := by
  obtain ⟨x, yA, yr, rho, y, b, h1, h2, h3, h4, h5, h6, h7, h8, h9, hb1, hb2, h10, h11⟩ := h.stat F hts hfin
  refine ⟨x, yA, yr, rho, y, h1, h2, h3, h4, h5, h6, h7, h8, h9, fun i => ?_⟩
  have hz : (if b then 0 else F.v rho • (F.prob n a).gPhi) = F.v rho • (F.prob n a).gPhi := by
    rcases hc with hc | hc
    · simp [hc]
    · simp [hb2 hc]
  have e1 := h10 i
  rw [hz] at e1
  have e2 := h11 (hfin' yr h6) i
  have e3 := abs_sub_abs_le_abs_sub ((F.prob n a).residual (F.vec n.nV x) (F.vec (n.nV + n.nA) yr) i)
    (((F.prob n a).penResidual (F.v rho) (F.vec n.nV x) y - F.v rho • (F.prob n a).gPhi) i)
  linarith

/-- C57: in general the residual of the returned multipliers is off by `rho * g_phi` once the penalty has been updated. -/
theorem C57_error (F : Rounds α K u t) (h : Solved e fuel o n a o1 o') {ts : K}
    (hts : F.val o.d.opts.statTol = some ts) (hfin : ∀ st, o'.s.statk = some st → ∀ c ∈ st, F.IsFin c)
    (hfin' : ∀ yr, o'.s.yk = some yr → ∀ c ∈ yr, F.IsFin c) (hc : o'.s.outer ≠ some 0) :
    ∃ (x yA yr : List α) (rho : α) (y : Fin (n.nV + n.nA) → K), o'.s.xk = some x ∧ x.length = n.nV ∧ o'.s.rho = some rho ∧
      o'.s.ykA = some yA ∧ yA.length = n.nA ∧ o'.s.yk = some yr ∧ yr.length = n.nV + n.nA ∧
      yLin y = F.vec n.nA yA ∧ yBox y = F.vec n.nV yr ∧
      ∀ i, |((F.prob n a).residual (F.vec n.nV x) (F.vec (n.nV + n.nA) yr) + F.v rho • (F.prob n a).gPhi) i| <
        ts + ((1 + u) ^ (n.nV + n.nC + 2 * n.nComp + 11) - 1) * (F.prob n a).magStat t (F.v rho) (F.vec n.nV x) y i +
        ((1 + u) ^ (n.nV + 3) - 1) * (F.prob n a).magDual t (F.v rho) (F.vec n.nV x) y i := by
  obtain ⟨x, yA, yr, rho, y, b, h1, h2, h3, h4, h5, h6, h7, h8, h9, hb1, hb2, h10, h11⟩ := h.stat F hts hfin
  refine ⟨x, yA, yr, rho, y, h1, h2, h3, h4, h5, h6, h7, h8, h9, fun i => ?_⟩
  have hz : (if b then 0 else F.v rho • (F.prob n a).gPhi) = 0 := by
    cases b
    · rcases hb1 rfl with h | h
      · exact absurd h hc
      · simp [h]
    · simp
  have e1 := h10 i
  rw [hz, sub_zero] at e1
  have e2 := h11 (hfin' yr h6) i
  have e3 := abs_sub_abs_le_abs_sub (((F.prob n a).residual (F.vec n.nV x) (F.vec (n.nV + n.nA) yr) +
    F.v rho • (F.prob n a).gPhi) i) ((F.prob n a).penResidual (F.v rho) (F.vec n.nV x) y i)
  have e4 : ((F.prob n a).residual (F.vec n.nV x) (F.vec (n.nV + n.nA) yr) + F.v rho • (F.prob n a).gPhi) i -
      (F.prob n a).penResidual (F.v rho) (F.vec n.nV x) y i = (F.prob n a).residual (F.vec n.nV x) (F.vec (n.nV + n.nA) yr) i -
      ((F.prob n a).penResidual (F.v rho) (F.vec n.nV x) y - F.v rho • (F.prob n a).gPhi) i := by
    simp only [Pi.add_apply, Pi.sub_apply]
    ring
  rw [e4] at e3
  linarith

/-- C57: the error factor grows about linearly with the number of operations. -/
theorem C57_gamma (F : Rounds α K u t) {k : Nat} (hk : (k : K) * u < 1) : (1 + u) ^ k - 1 ≤ k * u / (1 - k * u) :=
  pow_gamma F.u0 hk

/-! ## IEEE doubles

Runs with the arithmetic of IEEE doubles.  Most of the numbers of the problem are not doubles. -/

namespace ExD
open Dbl

/-- options -/
def opts : Options Dbl := { Options.default 0 0 with
  perturb := false }

/-- constructed object -/
def obj0 : Obj Dbl := Obj.new opts 2 0 1

/-- arguments of `loadLCQP` -/
def args : DenseArgs Dbl where
  Q := some [lit 2 1, zero, zero, lit 2 1]
  g := some [lit (-2) 1, lit (-2) 1]
  L := some [lit 1 1, zero]
  R := some [zero, lit 7 1]

/-- the same problem with lower complementarity bounds -/
def args2 : DenseArgs Dbl := { args with
  lbL := some [lit 1 1]
  lbR := some [lit 3 1] }

/-- a successful answer -/
def answer (x y : List Dbl) : Resp Dbl where
  ret := 0
  iter := 3
  status := 1
  setup := true
  warmX := true
  warmY := true
  x := fun i => x.getD i zero
  y := fun i => y.getD i zero

/-- an outside world with the given QP solver -/
def envOf (r : Nat → Resp Dbl) : Env Dbl where
  qp := fun k _ => r k
  rnd := fun n => n
  junk := fun _ _ => .nan
  junkI := fun _ => -1

/-- every QP is answered by the point (1, 0) -/
def env : Env Dbl := envOf fun _ => answer [one, zero] [zero, zero, zero, lit (-28471428571428571) 17]

/-- the first QP is answered by (2, 1), the others by (1, 1) -/
def env2 : Env Dbl := envOf fun k =>
  if k = 0 then answer [two, one] [zero, zero, lit 2007 3, lit 2 3] else answer [one, one] [zero, zero, lit 8 3, zero]

/-- the run is successful and all numbers are finite -/
def fine (env : Env Dbl) (a : DenseArgs Dbl) (w : List (Option ℚ)) (k : Int) : Bool :=
  match loadDense env obj0 a with
  | .ok (.successfulReturn, o1) =>
    match runSolver env 10 o1 with
    | .ok (some (.successfulReturn, o')) =>
      (match getPhi o'.d o'.s with
        | .ok v => (val v).isSome
        | _ => false) &&
      (match o'.s.statk with
        | some st => (st.all fun c => (val c).isSome) && decide (st.map val = w)
        | none => false) &&
      (match o'.s.yk with
        | some y => y.all fun c => (val c).isSome
        | none => false) && decide (o'.s.outer = some k)
    | _ => false
  | _ => false

theorem of_fine {env : Env Dbl} {a : DenseArgs Dbl} {w : List (Option ℚ)} {k : Int} (hf : a.Fits ⟨2, 0, 1⟩)
    (hp : a.lbL = none ↔ a.lbR = none) (h : fine env a w k = true) : ∃ o1 o', Solved env 10 obj0 ⟨2, 0, 1⟩ a o1 o' ∧
    (∀ v, getPhi o'.d o'.s = .ok v → rounds.IsFin v) ∧ (∀ st, o'.s.statk = some st → ∀ c ∈ st, rounds.IsFin c) ∧
    (∀ yr, o'.s.yk = some yr → ∀ c ∈ yr, rounds.IsFin c) ∧ o'.s.outer = some k ∧
    o'.s.statk.map (·.map val) = some w := by
  unfold fine at h
  split at h
  case h_2 => cases h
  case h_1 o1 hl =>
    split at h
    case h_2 => cases h
    case h_1 o' hr =>
      simp only [Bool.and_eq_true, decide_eq_true_eq] at h
      obtain ⟨⟨⟨h1, h2⟩, h3⟩, h4⟩ := h
      have fin : ∀ c : Dbl, (val c).isSome = true → rounds.IsFin c := by
        intro c hc hn
        change val c = none at hn
        rw [hn] at hc; cases hc
      refine ⟨o1, o', ⟨Built.new _ (by decide), LowUnset.new _ (by decide), hf, hp, hl, hr⟩, ?_, ?_, ?_, h4, ?_⟩
      · intro v hv
        rw [hv] at h1
        exact fin v h1
      · intro st hst c hc
        rw [hst] at h2
        simp only [Bool.and_eq_true, List.all_eq_true] at h2
        exact fin c (h2.1 c hc)
      · intro y hy c hc
        rw [hy] at h3
        simp only [List.all_eq_true] at h3
        exact fin c (h3 c hc)
      · cases hst : o'.s.statk with
        | none => rw [hst] at h2; cases h2
        | some st =>
          rw [hst] at h2
          simp only [Bool.and_eq_true, decide_eq_true_eq] at h2
          simp [h2.2]

/-- The hypotheses of the theorems of C57 are met by a run with IEEE doubles in which rounding errors occur: one entry
of the stationarity vector is `-2^-55`. -/
theorem solved : ∃ o1 o', Solved env 10 obj0 ⟨2, 0, 1⟩ args o1 o' ∧
    (∀ v, getPhi o'.d o'.s = .ok v → rounds.IsFin v) ∧ (∀ st, o'.s.statk = some st → ∀ c ∈ st, rounds.IsFin c) ∧
    (∀ yr, o'.s.yk = some yr → ∀ c ∈ yr, rounds.IsFin c) ∧ o'.s.outer = some 0 ∧
    o'.s.statk.map (·.map val) = some [some 0, some (-1 / 36028797018963968)] := by
  refine of_fine ?_ (by simp [args]) (by decide +kernel)
  refine ⟨⟨_, rfl, by decide⟩, ⟨_, rfl, by decide⟩, ⟨_, rfl, by decide⟩, ?_, ?_, ?_, ?_, ?_, ?_, ?_, ?_, ?_, ?_, ?_, ?_⟩ <;>
    (rintro v ⟨⟩) <;> simp

/-- The same with lower complementarity bounds and a penalty update. -/
theorem solved2 : ∃ o1 o', Solved env2 10 obj0 ⟨2, 0, 1⟩ args2 o1 o' ∧
    (∀ v, getPhi o'.d o'.s = .ok v → rounds.IsFin v) ∧ (∀ st, o'.s.statk = some st → ∀ c ∈ st, rounds.IsFin c) ∧
    (∀ yr, o'.s.yk = some yr → ∀ c ∈ yr, rounds.IsFin c) ∧ o'.s.outer = some 1 ∧
    o'.s.statk.map (·.map val) = some [some (211 / 9223372036854775808), some 0] := by
  refine of_fine ?_ (by simp [args2]) (by decide +kernel)
  refine ⟨⟨_, rfl, by decide⟩, ⟨_, rfl, by decide⟩, ⟨_, rfl, by decide⟩, ?_, ?_, ?_, ?_, ?_, ?_, ?_, ?_, ?_, ?_, ?_, ?_⟩ <;>
    (rintro v ⟨⟩) <;> simp

end ExD

/-- C57: IEEE doubles satisfy the standard model of floating point arithmetic. -/
theorem C57_binary64 : ∃ F : Rounds Dbl ℚ (1 / 2 ^ 53) (1 / 2 ^ 1022), F.val = Dbl.val := by
  have h1 : Dbl.pow2 (-53) = 1 / 2 ^ 53 := by decide +kernel
  have h2 : Dbl.pow2 (-1022) = 1 / 2 ^ 1022 := by decide +kernel
  rw [← h1, ← h2]
  exact ⟨Dbl.rounds, rfl⟩

/-- the factor of the rounding errors for IEEE doubles: `k` operations cost `k * 2^-53`, up to one per cent, if there
are less than `10^13` of them -/
theorem C57_double {k : Nat} (hk : k ≤ 10 ^ 13) :
    (1 + Dbl.pow2 (-53)) ^ k - 1 ≤ 101 / 100 * (k * Dbl.pow2 (-53)) := by
  have e : Dbl.pow2 (-53) = 1 / 9007199254740992 := by decide +kernel
  have hk' : (k : ℚ) ≤ 10 ^ 13 := by exact_mod_cast hk
  have h0 : (0 : ℚ) ≤ k := Nat.cast_nonneg k
  have hlt : (k : ℚ) * Dbl.pow2 (-53) ≤ 1 / 900 := by rw [e]; linarith
  refine (C57_gamma Dbl.rounds (by linarith)).trans ?_
  have hp : 0 ≤ (k : ℚ) * Dbl.pow2 (-53) := mul_nonneg h0 (Dbl.pow2_pos _).le
  rw [div_le_iff₀ (by linarith)]
  nlinarith

/-- the theorems apply to the run -/
example : ∃ o1 o' x, Solved ExD.env 10 ExD.obj0 ⟨2, 0, 1⟩ ExD.args o1 o' ∧ o'.s.xk = some x ∧
    (Dbl.rounds.prob ⟨2, 0, 1⟩ ExD.args).phi (Dbl.rounds.vec 2 x) <
      Dbl.rounds.v ExD.obj0.d.opts.complTol + ((1 + Dbl.pow2 (-53)) ^ 12 - 1) *
        (Dbl.rounds.prob ⟨2, 0, 1⟩ ExD.args).magPhi (Dbl.pow2 (-1022)) (Dbl.rounds.vec 2 x) := by
  obtain ⟨o1, o', h, h1, _⟩ := ExD.solved
  obtain ⟨x, hx, _, hb⟩ := C57_complementary Dbl.rounds h (tc := Dbl.rounds.v ExD.obj0.d.opts.complTol)
    (by decide +kernel) h1
  exact ⟨o1, o', x, h, hx, hb⟩

example : ∃ o1 o' x yA yr, Solved ExD.env2 10 ExD.obj0 ⟨2, 0, 1⟩ ExD.args2 o1 o' ∧ o'.s.xk = some x ∧ o'.s.ykA = some yA ∧
    o'.s.yk = some yr := by
  obtain ⟨o1, o', h, _, h2, h3, h4, _⟩ := ExD.solved2
  obtain ⟨x, yA, yr, _, _, hx, _, _, hA, _, hr, _⟩ := C57_error Dbl.rounds h (ts := Dbl.rounds.v ExD.obj0.d.opts.statTol)
    (by decide +kernel) h2 h3 (by rw [h4]; decide)
  exact ⟨o1, o', x, yA, yr, h, hx, hA, hr⟩

end LCQ
