import Verif.Spec.Nan
import Verif.Lemmas.RoundEnd
import Verif.Props.Rounding
import Verif.Props.LoadSparse

/-!
# C61: NaN and success

A NaN in the point is noticed by the complementarity test, in dense and sparse mode, whatever the problem is.  A NaN in the
multipliers switches the stationarity test off, because `MaxAbs` ignores it.
-/

set_option linter.unusedSectionVars false

namespace LCQ
open Scalar

/-- NaN of the exact arithmetic with infinities -/
theorem NanLike.ext {K : Type} [Field K] [LinearOrder K] : NanLike (fun a : Ext K => a = .nan) := by
  constructor
  all_goals intro a b h; subst h
  · rfl
  · cases a <;> rfl
  · rfl
  · cases a <;> rfl
  · rfl
  · rfl
  · cases a <;> rfl

/-- NaN of IEEE doubles -/
theorem NanLike.dbl : NanLike (fun a : Dbl => a = .nan) := by
  constructor
  all_goals intro a b h; subst h
  · rfl
  · cases a <;> rfl
  · rfl
  · cases a <;> rfl
  · rfl
  · rfl
  · cases a <;> rfl

variable {α : Type} [Scalar α] {nan : α → Prop} {d : Data α} {n : Dims} {off : Nat} {s s' w : St α} {e : Env α} {o o' : Obj α}

/-! ## The point -/

theorem NanLike.quadForm (N : NanLike nan) {Q p : List α} {m j : Nat} {c v : α} (hj : j < m) (hp : rd p j = .ok c) (hc : nan c)
    (h : quadForm Q p m = .ok v) : nan v := by
  refine loop_partial (fun i r => 0 < i → nan r) _ _ _ _ h (by simp) ?_ (by omega)
  intro i _ r r' _ hs _
  simp only [bind_eq_ok] at hs
  obtain ⟨t, ht, q, _, hs⟩ := hs
  injection hs with hs
  subst hs
  refine N.add_r _ _ (N.mul_l _ _ ?_)
  refine loop_partial (fun k r => j < k → nan r) _ _ _ _ ht (by simp) ?_ hj
  intro k _ r r' hr hs hk
  simp only [bind_eq_ok] at hs
  obtain ⟨a, _, b, hb, hs⟩ := hs
  injection hs with hs
  subst hs
  rcases Nat.lt_or_ge j k with h1 | h1
  · exact N.add_l _ _ (hr h1)
  · obtain rfl : k = j := by omega
    rw [hp] at hb
    injection hb with hb
    subst hb
    exact N.add_r _ _ (N.mul_r _ _ hc)

theorem NanLike.spQuadForm (N : NanLike nan) {S : CSC α} {p : List α} {m j : Nat} {c v : α} (hj : j < m) (hp : rd p j = .ok c)
    (hc : nan c) (h : spQuadForm S p m = .ok v) : nan v := by
  refine loop_partial (fun i r => j < i → nan r) _ _ _ _ h (by simp) ?_ hj
  intro i _ r r' hr hs hi
  simp only [bind_eq_ok] at hs
  obtain ⟨_, _, _, _, t, _, q, hq, hs⟩ := hs
  injection hs with hs
  subst hs
  rcases Nat.lt_or_ge j i with h1 | h1
  · exact N.add_l _ _ (hr h1)
  · obtain rfl : i = j := by omega
    rw [hp] at hq
    injection hq with hq
    subst hq
    exact N.add_r _ _ (N.mul_l _ _ hc)

theorem NanLike.getPhi (N : NanLike nan) {x : List α} {j : Nat} {c v : α} (hd : d.dims = some n) (hx : s.xk = some x) (hj : j < n.nV)
    (hp : rd x j = .ok c) (hc : nan c) (h : getPhi d s = .ok v) : nan v := by
  simp only [LCQ.getPhi, hd, hx, initd_some, deref_some, ok_bind, bind_eq_ok] at h
  obtain ⟨l, _, q, hq, h⟩ := h
  injection h with h
  subst h
  refine N.add_r _ _ (N.div_l _ _ ?_)
  unfold quadDS at hq
  split at hq
  · simp only [bind_eq_ok] at hq
    obtain ⟨S, _, hq⟩ := hq
    exact N.spQuadForm hj hp hc hq
  · simp only [bind_eq_ok] at hq
    obtain ⟨S, _, hq⟩ := hq
    exact N.quadForm hj hp hc hq

/-- C61: in dense and in sparse mode the point of a successful run contains no NaN. -/
theorem C61_point (N : NanLike nan) {fuel : Nat} (hn : o'.d.dims = some n)
    (h : runSolver e fuel o = .ok (some (.successfulReturn, o'))) :
    ∃ x, o'.s.xk = some x ∧ ∀ j < n.nV, ∀ c, x[j]? = some c → ¬ nan c := by
  obtain ⟨s, _, hp⟩ := run_last h
  obtain ⟨s1, s2, s3, h1, h2, h3, ⟨_, hco, q, hq, hqq⟩ | ⟨s4, t, rho, h4, _, _, h5⟩⟩ := pass_inv hp
  · injection hqq with hqq
    subst hqq
    obtain ⟨y, ta, _, _, hq2⟩ := accept_inv hq
    dsimp only at hq2
    have hx : o'.s.xk = s3.xk := by rw [hq2]
    simp only [complementarityCheck, bind_eq_ok] at hco
    obtain ⟨v, hv, hco⟩ := hco
    injection hco with hco
    have hv' := hv
    simp only [getPhi, hn, initd_some, ok_bind, bind_eq_ok, deref_eq_ok] at hv'
    obtain ⟨x, hxs, _⟩ := hv'
    refine ⟨x, by rw [hx, hxs], fun j hj c hc hnan => ?_⟩
    have := N.getPhi hn hxs hj (rd_some hc) hnan hv
    rw [N.lt_l _ _ this] at hco
    cases hco
  · rcases h5 with ⟨_, h5⟩ | ⟨_, _, h5⟩ | ⟨_, _, h5⟩
    · injection h5 with h5; injection h5 with h5; cases h5
    · injection h5 with h5; injection h5 with h5; cases h5
    · obtain ⟨gk, q', _, ⟨hne, h6⟩ | ⟨_, _, _, _, _, ⟨⟩⟩⟩ := nextStep_inv h5
      injection h6 with h6
      injection h6 with h6 _
      exact absurd h6.symm hne

/-! ## The multipliers -/

theorem NanLike.facc (N : NanLike nan) {a : α} {m j : Nat} {f : Nat → α} (hj : j < m) (h : nan (f j)) : nan (facc a m f) := by
  induction m with
  | zero => omega
  | succ m ih =>
    rcases Nat.lt_or_ge j m with h1 | h1
    · exact N.add_l _ _ (ih h1)
    · obtain rfl : m = j := by omega
      exact N.add_r _ _ h

theorem NanLike.maxAbs (N : NanLike nan) {st : List α} {m : Nat} (hl : m ≤ st.length) (h : ∀ i < m, nan (gt st i)) :
    maxAbs st m = .ok (getMax zero (-. zero)) := by
  have : ∀ k ≤ m, mxmn (gt st) k = (zero, zero) := by
    intro k
    induction k with
    | zero => intro _; rfl
    | succ k ih =>
      intro hk
      rw [mxmn, ih (by omega)]
      simp [N.lt_r _ _ (h k (by omega)), N.lt_l _ _ (h k (by omega))]
  rw [maxAbs_ok hl, maxAbsF, this m (le_refl _)]

/-- C61: `MaxAbs` ignores NaN: it is the maximum over the other entries. -/
theorem C61_maxAbs (N : NanLike nan) [DecidablePred nan] (st : List α) :
    maxAbs st st.length = maxAbs (st.filter fun c => ¬ nan c) (st.filter fun c => ¬ nan c).length := by
  have key : mxmn (gt st) st.length = mxmn (gt (st.filter fun c => ¬ nan c)) (st.filter fun c => ¬ nan c).length := by
    induction st using List.reverseRecOn with
    | nil => rfl
    | append_singleton st a ih =>
      have pre : ∀ (l : List α) (b : α), mxmn (gt (l ++ [b])) l.length = mxmn (gt l) l.length := by
        intro l b
        have : ∀ k ≤ l.length, mxmn (gt (l ++ [b])) k = mxmn (gt l) k := by
          intro k
          induction k with
          | zero => intro _; rfl
          | succ k ih =>
            intro hk
            have : gt (l ++ [b]) k = gt l k := by
              simp only [gt, List.getD]
              rw [List.getElem?_append_left (by omega)]
            rw [mxmn, mxmn, ih (by omega), this]
        exact this _ (le_refl _)
      have last : ∀ (l : List α) (b : α), gt (l ++ [b]) l.length = b := by
        intro l b
        simp [gt, List.getD]
      rw [List.length_append, List.length_singleton, mxmn, pre, last, ih]
      by_cases ha : nan a
      · simp [N.lt_r _ _ ha, N.lt_l _ _ ha, List.filter_append, ha]
      · have e : (st ++ [a]).filter (fun c => decide ¬ nan c) = st.filter (fun c => decide ¬ nan c) ++ [a] := by
          simp [List.filter_append, ha]
        rw [e, List.length_append, List.length_singleton, mxmn, pre, last]
  rw [maxAbs_ok (le_refl _), maxAbs_ok (le_refl _), maxAbsF, maxAbsF, key]

/-- a NaN among the multipliers of the constraints makes every entry of the stationarity vector NaN -/
theorem NanLike.updateStationarity (N : NanLike nan) {ya : List α} {k : Nat} {c : α} (hd : DataOK d n off) (hs : Head d n off s)
    (hsp : d.sparse = false) (hya : s.ykA = some ya) (hk : ya[k]? = some c) (hc : nan c)
    (h : updateStationarity d s = .ok s') :
    ∃ st, s'.statk = some st ∧ st.length = n.nV ∧ ∀ i < n.nV, nan (gt st i) := by
  obtain ⟨x, hx, lx⟩ := hs.xk
  obtain ⟨gT, hg, lg⟩ := hs.gTilde
  obtain ⟨st, h1, l1⟩ := hs.statk
  obtain ⟨cs, h2, l2⟩ := hs.cstat
  obtain ⟨b, h3, l3⟩ := hs.bstat
  obtain ⟨y, hy, ly, _⟩ := hs.y
  obtain ⟨ya', hya', lya⟩ := hs.ykA
  rw [hya] at hya'
  injection hya' with hya'
  subst hya'
  have hA := hd.A
  have hQ := hs.qk
  simp only [MatOK, QkOK, hsp, Bool.false_eq_true, if_false] at hA hQ
  obtain ⟨A, hA, lA⟩ := hA
  obtain ⟨Qk, hq, lq⟩ := hQ
  have hkn : k < n.nA := by
    obtain ⟨hk', _⟩ := List.getElem?_eq_some_iff.mp hk
    omega
  have hgk : gt ya k = c := by simp [gt, List.getD, hk]
  simp only [LCQ.updateStationarity, hd.dims, hx, hg, h1, hya, h2, initd_some, deref_some, ok_bind, affineDS, tmulDS, hsp, hq, hA,
    Bool.false_eq_true, if_false] at h
  rw [affine_ok lq lx lg l1, ok_bind, matTMul_ok lA (by omega) (by omega), ok_bind, grid_one,
    weightedVecAdd_ok (by simp [Src.val]) (by simp [Src.val]) (by simp), ok_bind] at h
  have hn : ∀ i, nan (LCQ.facc zero n.nA (fun k => gt A (k * n.nV + i) *. gt ya k)) := by
    intro i
    refine N.facc hkn (N.mul_r _ _ ?_)
    rw [hgk]; exact hc
  by_cases hb : d.lb ≠ none ∨ d.ub ≠ none
  · have hoff : off = n.nV := by
      rcases hd.sub with ⟨_, _, _, h⟩ | ⟨_, _, _, h⟩ | ⟨_, _, _, _, _, _, h1, h2⟩
      · exact h
      · exact h
      · rcases hb with h | h
        · exact absurd h1 h
        · exact absurd h2 h
    simp only [boxStat, if_pos hb, hy, h3, deref_some, ok_bind] at h
    rw [copy_loop_ok' (by omega) l3, ok_bind, weightedVecAdd_ok (by simp [Src.val]) (by simp [Src.val]) (by simp), ok_bind] at h
    injection h with h
    subst h
    refine ⟨_, rfl, by simp, fun i hi => ?_⟩
    simp only [Src.val, gt_tab _ hi, Nat.mul_one, Nat.add_zero]
    exact N.add_l _ _ (N.mul_r _ _ (N.add_r _ _ (N.mul_r _ _ (hn i))))
  · simp only [boxStat, if_neg hb, ok_bind] at h
    injection h with h
    subst h
    refine ⟨_, rfl, by simp, fun i hi => ?_⟩
    simp only [Src.val, gt_tab _ hi, Nat.mul_one, Nat.add_zero]
    exact N.add_r _ _ (N.mul_r _ _ (hn i))

/-- C61, the negation of the expected property: in dense mode a NaN among the multipliers of the constraints switches the
stationarity test off.  Wherever the iterates are, the pass ends the run with success as soon as the new point is complementary. -/
theorem C61_blind (N : NanLike nan) {ya : List α} {k : Nat} {c : α} {s1 : St α} {r : Step α} (hR : Ready o n)
    (hsp : o.d.sparse = false) (hat : AtHead e o d s) (hya : s.ykA = some ya) (hk : ya[k]? = some c) (hc : nan c)
    (htol : (getMax zero (-. zero) <. d.opts.statTol) = true) (h1 : advance d s = .ok s1)
    (hco : complementarityCheck d s1 = .ok true) (h : pass e d s = .ok r) :
    ∃ s', r = .inr (.successfulReturn, s') ∧ s'.xk = s1.xk := by
  obtain ⟨off, hd, hs, hsp', _⟩ := hR.head hat
  rw [hsp] at hsp'
  have hst : stationarityCheck d s1 = .ok true := by
    obtain ⟨x, a, b, cc, p, l, st, t, i, _, _, _, ⟨u, hu, hup⟩, hpp, _, _, hs1⟩ := advance_inv h1
    obtain ⟨x', lx', hx'⟩ := updateStep_ok hd hs.toArrOK
    rw [hx'] at hu
    injection hu with hu
    have hs' : Head d n off { s with xk := some x' } :=
      ⟨{ hs.toArrOK with xk := ⟨_, rfl, lx'⟩ }, hs.qk.congr rfl rfl rfl, hs.y.congr rfl rfl, hs.gt.congr rfl rfl rfl⟩
    rw [← hu] at hup
    obtain ⟨stv, h2, l2, h3⟩ := N.updateStationarity hd hs' hsp' hya hk hc hup
    have h4 : s1.statk = some stv := by rw [hs1]; exact h2
    simp only [stationarityCheck, hd.dims, h4, initd_some, deref_some, ok_bind, N.maxAbs (by omega) h3, htol]
  obtain ⟨s1', s2, s3, h1', h2, h3, hend⟩ := pass_inv h
  rw [h1] at h1'
  injection h1' with h1'
  subst h1'
  have h23 : ∃ hh gk, s3 = { s1 with hist := hh, gk := some gk } := by
    obtain ⟨r, hh, hr, hr2, ⟨hb, h'⟩ | ⟨hb, h'⟩⟩ := dynamicPenalty_inv h2
    · obtain ⟨gk, rfl⟩ := updateLinearization_inv h3
      subst h'
      rw [hr2]
      exact ⟨hh, gk, rfl⟩
    · have := leyffer_fires hr hb
      rw [hco] at this
      cases this
  obtain ⟨hi, gk, h23⟩ := h23
  have e1 : stationarityCheck d s3 = .ok true := by rw [h23]; exact hst
  have hx3 : s3.xk = s1.xk := by rw [h23]
  have e2 : complementarityCheck d s3 = .ok true := by rw [complementarityCheck_congr hx3, hco]
  rcases hend with ⟨_, _, q, hq, rfl⟩ | ⟨s4, t, rho, ⟨h4, _⟩ | ⟨_, h4, _⟩, _⟩
  · obtain ⟨y, ta, _, hq1, hq2⟩ := accept_inv hq
    refine ⟨q.2, ?_, by rw [hq2]; exact hx3⟩
    rw [← hq1]
  · rw [e1] at h4; cases h4
  · rw [e2] at h4; cases h4

/-! ## Examples -/

namespace ExN
open Dbl

/-- every QP is answered by the point (5, 0), with NaN multipliers of the constraints -/
def env : Env Dbl := ExD.envOf fun _ => ExD.answer [lit 5 0, zero] [zero, zero, .nan, .nan]

/-- the run of `ExD.args` with the QP solver `env` is successful and stops at (5, 0) -/
def stops : Bool :=
  match loadDense env ExD.obj0 ExD.args with
  | .ok (.successfulReturn, o1) =>
    match runSolver env 10 o1 with
    | .ok (some (.successfulReturn, o')) => decide (o'.s.xk.map (·.map val) = some [some 5, some 0]) &&
        decide (o'.s.statk.map (·.map val) = some [none, none])
    | _ => false
  | _ => false

/-- in that run the hypotheses of `C61_blind` hold at the first head of the main loop -/
def atHead : Bool :=
  match loadDense env ExD.obj0 ExD.args with
  | .ok (.successfulReturn, o1) =>
    match initializeSolver env o1 with
    | .ok (.successfulReturn, o2) =>
      match firstStep env o2.d o2.s with
      | .ok (.inl s) =>
        match advance o2.d s with
        | .ok s1 => (match s.ykA with
            | some (.nan :: _) => true
            | _ => false) && (getMax zero (-. zero) <. o2.d.opts.statTol) &&
          (match complementarityCheck o2.d s1 with
            | .ok b => b
            | _ => false)
        | _ => false
      | _ => false
    | _ => false
  | _ => false

end ExN

/-- C61: doubles; the objective ((x-1)^2+(y-1)^2)/10 with the pair x/10, 7y/10 of complementarity
constraints.  The run stops successfully at (5, 0), which is not stationary,
because the QP solver returned NaN multipliers. -/
example : ExN.stops = true := by decide +kernel

/-- non-vacuity of `C61_point`: it applies to a run in doubles -/
example : ∃ o1 o' x, runSolver ExD.env 10 o1 = .ok (some (.successfulReturn, o')) ∧ o'.s.xk = some x ∧
    ∀ j < 2, ∀ c, x[j]? = some c → c ≠ .nan := by
  obtain ⟨o1, o', h, _⟩ := ExD.solved
  obtain ⟨x, hx, hh⟩ := C61_point NanLike.dbl (h.last Dbl.rounds).1.dims h.run
  exact ⟨o1, o', x, h.run, hx, hh⟩

/-- non-vacuity of `C61_blind` -/
example : ∃ (o1 : Obj Dbl) (d : Data Dbl) (s s1 : St Dbl) (ya : List Dbl),
    loadDense ExN.env ExD.obj0 ExD.args = .ok (.successfulReturn, o1) ∧ AtHead ExN.env o1 d s ∧
    s.ykA = some ya ∧ ya[0]? = some .nan ∧ (getMax zero (-. zero) <. d.opts.statTol) = true ∧ advance d s = .ok s1 ∧
    complementarityCheck d s1 = .ok true := by
  have h : ExN.atHead = true := by decide +kernel
  unfold ExN.atHead at h
  split at h
  case h_2 => cases h
  case h_1 o1 h1 =>
    split at h
    case h_2 => cases h
    case h_1 o2 h2 =>
      split at h
      case h_2 => cases h
      case h_1 s h3 =>
        split at h
        case h_2 => cases h
        case h_1 s1 h4 =>
          simp only [Bool.and_eq_true] at h
          obtain ⟨⟨h5, h6⟩, h7⟩ := h
          split at h5
          case h_2 => cases h5
          case h_1 ya h8 =>
            split at h7
            case h_2 => cases h7
            case h_1 b h9 =>
              subst h7
              exact ⟨o1, o2.d, s, s1, _, h1, ⟨s, ⟨_, h2, rfl, rfl, h3⟩, .start⟩, h8, rfl, h6, h4, h9⟩

end LCQ
