import Verif.Lemmas.MergeQk
import Verif.Lemmas.Sparse
import Verif.Lemmas.Dense
import Verif.Lemmas.Live

/-!
# Array sizes during a run: no function of the main loop fails

`DataOK` and `StOK` describe the sizes of all arrays of an initialised object; every function of the
main loop succeeds on such an object, for any arithmetic and any QP answers.
-/

set_option linter.unusedSectionVars false

namespace LCQ
open Scalar

variable {α : Type} [Scalar α]

/-- non-null array of `k` entries -/
def Has (o : Option (List α)) (k : Nat) : Prop := ∃ v, o = some v ∧ v.length = k

/-- null or array of `k` entries -/
def HasOpt (o : Option (List α)) (k : Nat) : Prop := o = none ∨ Has o k

/-- dense or sparse `m × n` matrix -/
def MatOK (sp : Bool) (B : Option (List α)) (S : Option (CSC α)) (m n : Nat) : Prop :=
  if sp then ∃ T, S = some T ∧ T.Valid ∧ T.m = m ∧ T.n = n else Has B (m * n)

theorem MatOK.cases {sp : Bool} {B : Option (List α)} {S : Option (CSC α)} {m n : Nat}
    (h : MatOK sp B S m n) : (sp = true ∧ ∃ T, S = some T ∧ T.Valid ∧ T.m = m ∧ T.n = n) ∨
      (sp = false ∧ Has B (m * n)) := by
  unfold MatOK at h
  cases sp
  · exact Or.inr ⟨rfl, h⟩
  · exact Or.inl ⟨rfl, h⟩

/-! ## kernels -/

theorem affineDS_ok {sp : Bool} {B : Option (List α)} {S : Option (CSC α)} {n : Nat}
    (h : MatOK sp B S n n) (a : α) {b c : List α} (hb : b.length = n) (hc : c.length = n) :
    ∃ v, v.length = n ∧ ∀ out : List α, out.length = n → affineDS sp B S a b c out n = .ok v := by
  rcases h.cases with ⟨rfl, T, rfl, hT, hm, hn⟩ | ⟨rfl, M, rfl, hM⟩
  · subst hn
    refine ⟨_, ?_, fun out ho => by
      simp only [affineDS, if_true, deref_some, ok_bind]
      exact spAffine_ok hT (by omega) hc ho⟩
    simp
  · refine ⟨_, ?_, fun out ho => by
      simp only [affineDS, deref_some, ok_bind]
      exact affine_ok hM hb hc ho⟩
    simp

theorem quadDS_ok {sp : Bool} {B : Option (List α)} {S : Option (CSC α)} {n : Nat}
    (h : MatOK sp B S n n) {p : List α} (hp : p.length = n) : ∃ v, quadDS sp B S p n = .ok v := by
  rcases h.cases with ⟨rfl, T, rfl, hT, hm, hn⟩ | ⟨rfl, M, rfl, hM⟩
  · subst hn
    refine ⟨_, by
      simp only [quadDS, if_true, deref_some, ok_bind]
      exact spQuadForm_ok hT (by omega) (by omega)⟩
  · refine ⟨_, by
      simp only [quadDS, deref_some, ok_bind]
      exact quadForm_ok hM hp⟩

theorem mulDS_ok {sp : Bool} {B : Option (List α)} {S : Option (CSC α)} {m n : Nat}
    (h : MatOK sp B S m n) {b : List α} (hb : b.length = n) :
    ∃ v, v.length = m ∧ ∀ out : List α, out.length = m → mulDS sp B S b out m n = .ok v := by
  rcases h.cases with ⟨rfl, T, rfl, hT, hm, hn⟩ | ⟨rfl, M, rfl, hM⟩
  · subst hn hm
    refine ⟨_, ?_, fun out ho => by
      simp only [mulDS, if_true, deref_some, ok_bind]
      exact spMul_ok hT (by omega) ho⟩
    simp
  · refine ⟨_, ?_, fun out ho => by
      simp only [mulDS, deref_some, ok_bind]
      exact matMul_ok hM (by omega) (by omega)⟩
    simp

theorem tmulDS_ok {sp : Bool} {B : Option (List α)} {S : Option (CSC α)} {m n : Nat}
    (h : MatOK sp B S m n) {b : List α} (hb : b.length = m) :
    ∃ v, v.length = n ∧ ∀ out : List α, out.length = n → tmulDS sp B S b out m n = .ok v := by
  rcases h.cases with ⟨rfl, T, rfl, hT, hm, hn⟩ | ⟨rfl, M, rfl, hM⟩
  · subst hn hm
    refine ⟨_, ?_, fun out ho => by
      simp only [tmulDS, if_true, deref_some, ok_bind]
      exact spTMul_ok hT (by omega) ho⟩
    simp
  · refine ⟨_, ?_, fun out ho => by
      simp only [tmulDS, deref_some, ok_bind]
      exact matTMul_ok hM (by omega) (by omega)⟩
    simp

theorem addTMulDS_ok {sp : Bool} {B : Option (List α)} {S : Option (CSC α)} {m n : Nat}
    (h : MatOK sp B S m n) {b out : List α} (hb : b.length = m) (ho : out.length = n) :
    ∃ v, v.length = n ∧ addTMulDS sp B S b out m n = .ok v := by
  rcases h.cases with ⟨rfl, T, rfl, hT, hm, hn⟩ | ⟨rfl, M, rfl, hM⟩
  · subst hn hm
    refine ⟨_, ?_, by
      simp only [addTMulDS, if_true, deref_some, ok_bind]
      exact addSpTMul_ok hT (by omega) ho⟩
    simp
  · refine ⟨_, ?_, by
      simp only [addTMulDS, deref_some, ok_bind]
      exact addMatTMul_ok hM (by omega) (by omega)⟩
    simp

theorem copy_loop_ok {off n : Nat} {src b : List α} (hs : off + n ≤ src.length) (hb : b.length = n) :
    loop n (fun i b => do let v ← rd src (off + i); wr b i v) b = .ok (tab n fun i => gt src (off + i)) := by
  apply loop_fill (fun i => gt src (off + i)) _ _ _ hb
  intro i hi
  rw [rd_ok (by omega), ok_bind, wr_ok (by simp; omega)]

theorem copy_loop_ok' {n : Nat} {src b : List α} (hs : n ≤ src.length) (hb : b.length = n) :
    loop n (fun i b => do let v ← rd src i; wr b i v) b = .ok (tab n (gt src)) := by
  have := copy_loop_ok (off := 0) (src := src) (b := b) (by simpa using hs) hb
  simpa using this

theorem copyN_ok {n : Nat} {b : List α} (hb : b.length = n) : copyN b n = .ok b := by
  unfold copyN
  rw [if_pos (by omega), List.take_of_length_le (by omega)]

/-! ## well-formed objects -/

/-- the QP wrapper fits the problem; `off` is the number of box duals -/
def SubOK (d : Data α) (n : Dims) (off : Nat) : Prop :=
  (∃ Q A, d.sub = some (.dense n.nV n.nA Q A) ∧ off = n.nV) ∨
  (∃ Q A, d.sub = some (.sparse n.nV n.nA Q A) ∧ off = n.nV) ∨
  (∃ Q A, d.sub = some (.osqp Q A) ∧ Q.n = n.nV ∧ A.m = n.nA ∧ off = 0 ∧ d.lb = none ∧ d.ub = none)

/-- sizes of the problem data of an initialised object -/
structure DataOK (d : Data α) (n : Dims) (off : Nat) : Prop where
  dims : d.dims = some n
  boxOff : d.boxOff = some off
  nDuals : d.nDuals = some (off + n.nA)
  g : Has d.g n.nV
  Q : MatOK d.sparse d.Q d.Qs n.nV n.nV
  C : MatOK d.sparse d.C d.Cs n.nV n.nV
  A : MatOK d.sparse d.A d.As n.nA n.nV
  L : MatOK d.sparse d.L d.Ls n.nComp n.nV
  R : MatOK d.sparse d.R d.Rs n.nComp n.nV
  lbA : Has d.lbA n.nA
  ubA : Has d.ubA n.nA
  gPhi : HasOpt d.gPhi n.nV
  lb : HasOpt d.lb n.nV
  ub : HasOpt d.ub n.nV
  sub : SubOK d n off

/-- sizes of the arrays allocated by the constructor and the load function -/
structure ArrOK (n : Dims) (s : St α) : Prop where
  gTilde : Has s.gTilde n.nV
  gk : Has s.gk n.nV
  xk : Has s.xk n.nV
  ykA : Has s.ykA n.nA
  xnew : Has s.xnew n.nV
  pk : Has s.pk n.nV
  lkTmp : Has s.lkTmp n.nV
  statk : Has s.statk n.nV
  cstat : Has s.cstat n.nV
  bstat : Has s.bstat n.nV
  alpha : ∃ a, s.alpha = some a
  rho : ∃ r, s.rho = some r

/-- the penalised Hessian is in place -/
def QkOK (d : Data α) (n : Dims) (s : St α) : Prop :=
  if d.sparse then ∃ Q C v, d.Qs = some Q ∧ d.Cs = some C ∧ s.Qks = some (mcsc Q C n.nV v) ∧
    s.idxC = cpos 0 (mall Q C n.nV)
  else Has s.Qk (n.nV * n.nV)

/-- sizes of the iteration data in the main loop -/
structure StOK (d : Data α) (n : Dims) (off : Nat) (s : St α) : Prop extends ArrOK n s where
  yk : Has s.yk (off + n.nA)
  Qk : QkOK d n s
  qpIter : ∃ k, s.qpIter = some k
  qpExit : ∃ k, s.qpExit = some k
  work : (∃ Q A, d.sub = some (.osqp Q A)) → s.work = .live

variable {d : Data α} {n : Dims} {off : Nat} {s : St α} {e : Env α}

theorem QkOK.mat (hd : DataOK d n off) (h : QkOK d n s) : MatOK d.sparse s.Qk s.Qks n.nV n.nV := by
  unfold QkOK at h
  rcases hd.Q.cases with ⟨hsp, Q, hQ, vQ, mQ, nQ⟩ | ⟨hsp, _⟩
  · rcases hd.C.cases with ⟨_, C, hC, vC, mC, nC⟩ | ⟨hsp', _⟩
    · rw [if_pos hsp] at h
      obtain ⟨Q', C', v, h1, h2, h3, _⟩ := h
      rw [hQ] at h1; rw [hC] at h2
      injection h1 with h1; injection h2 with h2
      subst h1 h2
      rw [MatOK, if_pos hsp]
      exact ⟨_, h3, mcsc_valid Q C vQ vC _ v mQ nQ mC nC, rfl, rfl⟩
    · simp [hsp] at hsp'
  · rw [hsp] at h ⊢
    exact h

/-! ## the functions of the main loop -/

theorem updateLinearization_ok (hd : DataOK d n off) (hs : ArrOK n s) :
    ∃ v, v.length = n.nV ∧ updateLinearization d s = .ok { s with gk := some v } := by
  obtain ⟨gt, h1, l1⟩ := hs.gTilde
  obtain ⟨gk, h2, l2⟩ := hs.gk
  obtain ⟨x, h3, l3⟩ := hs.xk
  obtain ⟨r, h4⟩ := hs.rho
  obtain ⟨v, lv, hv⟩ := affineDS_ok hd.C r l3 l1
  refine ⟨v, lv, ?_⟩
  simp [updateLinearization, hd.dims, h1, h2, h3, h4, hv gk l2]

theorem getPhi_ok (hd : DataOK d n off) (hx : Has s.xk n.nV) : ∃ v, getPhi d s = .ok v := by
  obtain ⟨x, h3, l3⟩ := hx
  obtain ⟨q, hq⟩ := quadDS_ok hd.C l3
  have : ∃ l, phiLin d.gPhi x n.nV = .ok l := by
    rcases hd.gPhi with h | ⟨v, h, l⟩
    · exact ⟨_, by rw [h]; rfl⟩
    · rw [h]
      exact ⟨_, by simp only [phiLin]; rw [dotProd_ok (by omega) (by omega), ok_bind]⟩
  obtain ⟨l, hl⟩ := this
  exact ⟨_, by simp [getPhi, hd.dims, h3, hl, hq]; rfl⟩

theorem getObj_ok (hd : DataOK d n off) (hx : Has s.xk n.nV) : ∃ v, getObj d s = .ok v := by
  obtain ⟨x, h3, l3⟩ := hx
  obtain ⟨g, hg, lg⟩ := hd.g
  obtain ⟨q, hq⟩ := quadDS_ok hd.Q l3
  exact ⟨_, by simp [getObj, hd.dims, h3, hg, hq, dotProd_ok (show n.nV ≤ g.length by omega) (show n.nV ≤ x.length by omega)]; rfl⟩

theorem getMerit_ok (hd : DataOK d n off) (hx : Has s.xk n.nV) (hq : QkOK d n s) :
    ∃ v, getMerit d s = .ok v := by
  obtain ⟨x, h3, l3⟩ := hx
  obtain ⟨g, hg, lg⟩ := hd.g
  obtain ⟨q, hq⟩ := quadDS_ok (hq.mat hd) l3
  exact ⟨_, by simp [getMerit, hd.dims, h3, hg, hq, dotProd_ok (show n.nV ≤ g.length by omega) (show n.nV ≤ x.length by omega)]; rfl⟩

theorem stationarityCheck_ok (hd : DataOK d n off) (hs : ArrOK n s) :
    ∃ b, stationarityCheck d s = .ok b := by
  obtain ⟨v, h, l⟩ := hs.statk
  exact ⟨_, by simp [stationarityCheck, hd.dims, h, maxAbs_ok (show n.nV ≤ v.length by omega)]; rfl⟩

theorem complementarityCheck_ok (hd : DataOK d n off) (hx : Has s.xk n.nV) :
    ∃ b, complementarityCheck d s = .ok b := by
  obtain ⟨v, h⟩ := getPhi_ok hd hx
  exact ⟨_, by simp [complementarityCheck, h]; rfl⟩

theorem updateStep_ok (hd : DataOK d n off) (hs : ArrOK n s) :
    ∃ x, x.length = n.nV ∧ updateStep d s = .ok { s with xk := some x } := by
  obtain ⟨x, h1, l1⟩ := hs.xk
  obtain ⟨p, h2, l2⟩ := hs.pk
  obtain ⟨a, h3⟩ := hs.alpha
  refine ⟨_, ?_, by
    simp only [updateStep, hd.dims, h1, h2, h3, initd_some, deref_some, ok_bind]
    rw [weightedVecAdd_ok (by simpa [Src.val] using l1) (by simpa [Src.val] using l2) l1, ok_bind]⟩
  simp

theorem boxStat_ok (hd : DataOK d n off) (hb : Has s.bstat n.nV)
    (hy : Has s.yk (off + n.nA)) {st : List α} (hl : st.length = n.nV) :
    ∃ r : List α × Option (List α), boxStat d s n.nV st = .ok r ∧ r.1.length = n.nV ∧ Has r.2 n.nV := by
  unfold boxStat
  split
  · rename_i hbox
    have hoff : off = n.nV := by
      rcases hd.sub with ⟨_, _, _, h⟩ | ⟨_, _, _, h⟩ | ⟨_, _, _, _, _, _, h1, h2⟩
      · exact h
      · exact h
      · rcases hbox with h | h
        · exact absurd h1 h
        · exact absurd h2 h
    obtain ⟨y, h1, l1⟩ := hy
    obtain ⟨b, h2, l2⟩ := hb
    simp only [h1, h2, deref_some, ok_bind]
    rw [copy_loop_ok' (by omega) l2, ok_bind,
      weightedVecAdd_ok (by simpa [Src.val] using hl) (by simp [Src.val]) hl, ok_bind]
    exact ⟨_, rfl, by simp, _, rfl, by simp⟩
  · exact ⟨_, rfl, hl, hb⟩

theorem updateStationarity_ok (hd : DataOK d n off) (hs : StOK d n off s) :
    ∃ a b c, Has (some a) n.nV ∧ Has (some b) n.nV ∧ Has c n.nV ∧
      updateStationarity d s = .ok { s with statk := some a, cstat := some b, bstat := c } := by
  obtain ⟨x, h1, l1⟩ := hs.xk
  obtain ⟨gT, h2, l2⟩ := hs.gTilde
  obtain ⟨st, h3, l3⟩ := hs.statk
  obtain ⟨ya, h4, l4⟩ := hs.ykA
  obtain ⟨c, h5, l5⟩ := hs.cstat
  obtain ⟨v, lv, hv⟩ := affineDS_ok (hs.Qk.mat hd) one l1 l2
  obtain ⟨w, lw, hw⟩ := tmulDS_ok hd.A l4
  obtain ⟨r, hr, lr1, lr2⟩ := boxStat_ok hd hs.bstat hs.yk
    (st := tab n.nV fun i => one *. gt v i +. (-. one) *. gt w i) (by simp)
  refine ⟨r.1, w, r.2, ⟨_, rfl, lr1⟩, ⟨_, rfl, lw⟩, lr2, ?_⟩
  simp only [updateStationarity, hd.dims, h1, h2, h3, h4, h5, initd_some, deref_some, ok_bind]
  rw [hv st l3, ok_bind, hw c l5, ok_bind,
    weightedVecAdd_ok (by simpa [Src.val] using lv) (by simpa [Src.val] using lw) lv, ok_bind]
  simp only [Src.val]
  rw [hr, ok_bind]

theorem iterMore_ok (hs : StOK d n off s) : ∃ m, iterMore d s = .ok m := by
  obtain ⟨a, ha⟩ := hs.alpha
  obtain ⟨q, hq⟩ := hs.qpIter
  unfold iterMore
  split
  · exact ⟨_, by simp [ha, hq]; rfl⟩
  · exact ⟨_, rfl⟩

theorem printIteration_ok (hd : DataOK d n off) (hs : StOK d n off s) {i k : Int}
    (hi : s.inner = some i) (ho : s.outer = some k) :
    ∃ l, printIteration d s = .ok { s with out := l } := by
  obtain ⟨st, h1, l1⟩ := hs.statk
  obtain ⟨p, h2, l2⟩ := hs.pk
  obtain ⟨r, h3⟩ := hs.rho
  obtain ⟨phi, h4⟩ := getPhi_ok hd hs.xk
  obtain ⟨m, hm⟩ := iterMore_ok hs
  have : ∃ t, printIteration d s = .ok t := by
    unfold printIteration
    split
    · exact ⟨_, rfl⟩
    · simp only [hi, initd_some, ok_bind]
      split
      · exact ⟨_, rfl⟩
      · simp only [hd.dims, ho, h1, h2, h3, h4, hm, initd_some, deref_some, ok_bind,
          maxAbs_ok (show n.nV ≤ st.length by omega), maxAbs_ok (show n.nV ≤ p.length by omega)]
        exact ⟨_, rfl⟩
  obtain ⟨t, ht⟩ := this
  obtain ⟨l, rfl, _⟩ := printIteration_inv ht
  exact ⟨_, ht⟩

/-- integer members in the main loop: `t` iterations have been made, every QP call has reported at
most `N` iterations in absolute value -/
structure Bnd (N : Int) (s : St α) (t : Nat) : Prop where
  inner : ∃ i, s.inner = some i ∧ 0 ≤ i ∧ i ≤ t
  qpIter : ∃ q, s.qpIter = some q ∧ -N ≤ q ∧ q ≤ N
  sub0 : 0 ≤ s.stats.subproblemIter
  sub : s.stats.subproblemIter ≤ (t + 1) * N
  accu : ∀ v, s.stats.accuIters.getLast? = some v → -(t * N) ≤ v ∧ v ≤ t * N

theorem addInt_ok {a b : Int} (h1 : -intMax - 1 ≤ a + b) (h2 : a + b ≤ intMax) :
    addInt a b = .ok (a + b) := by
  unfold addInt
  rw [if_pos ⟨h1, h2⟩]

theorem track_ok {st : Stats α} {x : List α} {r : Stats.Row α} {m : Nat} (hx : m ≤ x.length) {v : Int}
    (ha : Stats.accuNext st.accuIters r.sub = .ok v) : ∃ q, st.track x r m = .ok q := by
  unfold Stats.track
  have : ∃ xs, loop m (fun i (acc : List α) => do
      let v ← rd x i
      .ok (acc ++ [v])) [] = .ok xs := by
    refine ⟨tab m (gt x), loop_eq (fun i => tab i (gt x)) m _ [] rfl ?_⟩
    intro i hi
    rw [rd_ok (by omega)]
    simp [tab, List.range_succ]
  obtain ⟨xs, hxs⟩ := this
  exact ⟨_, by rw [hxs, ok_bind, ha, ok_bind]⟩

theorem storeSteps_ok (hd : DataOK d n off) (hs : StOK d n off s) {N : Int} {t : Nat} (hN : 0 ≤ N)
    (hb : Bnd N s t) (hlim : (t + 1) * N ≤ intMax) :
    ∃ q, storeSteps d s = .ok { s with stats := q } ∧
      q.subproblemIter = s.stats.subproblemIter ∧
      (∀ v, q.accuIters.getLast? = some v → -((t + 1 : Nat) * N) ≤ v ∧ v ≤ (t + 1 : Nat) * N) := by
  obtain ⟨x, hx, lx⟩ := hs.xk
  obtain ⟨i, hi, _⟩ := hb.inner
  obtain ⟨sub, hsub, b1, b2⟩ := hb.qpIter
  obtain ⟨a, ha⟩ := hs.alpha
  obtain ⟨p, hp, lp⟩ := hs.pk
  obtain ⟨st, hst, lst⟩ := hs.statk
  obtain ⟨o, ho⟩ := getObj_ok hd hs.xk
  obtain ⟨phi, hphi⟩ := getPhi_ok hd hs.xk
  obtain ⟨m, hm⟩ := getMerit_ok hd hs.xk hs.Qk
  have hacc : ∃ v, Stats.accuNext s.stats.accuIters sub = .ok v ∧
      -((t + 1 : Nat) * N) ≤ v ∧ v ≤ (t + 1 : Nat) * N := by
    have h0 : 0 ≤ (t : Int) * N := mul_nonneg (by omega) hN
    have h1 : ((t + 1 : Nat) : Int) * N = t * N + N := by push_cast; ring
    have h2 : ((t : Int) + 1) * N = t * N + N := by ring
    unfold Stats.accuNext
    split
    · exact ⟨_, rfl, by omega, by omega⟩
    · rename_i last hlast
      obtain ⟨c1, c2⟩ := hb.accu last hlast
      unfold addInt
      rw [if_pos (by omega)]
      exact ⟨_, rfl, by omega, by omega⟩
  obtain ⟨v, hv, v1, v2⟩ := hacc
  obtain ⟨q, hq⟩ := track_ok (r := ⟨i, sub, a, maxAbsF (gt p) n.nV, maxAbsF (gt st) n.nV, o, phi, m⟩)
    (show n.nV ≤ x.length by omega) (st := s.stats) hv
  refine ⟨q.2, ?_, ?_⟩
  · simp only [storeSteps, hd.dims, hx, hi, hsub, ha, hp, hst, ho, hphi, hm, initd_some, deref_some,
      ok_bind, maxAbs_ok (show n.nV ≤ p.length by omega), maxAbs_ok (show n.nV ≤ st.length by omega), hq]
  · obtain ⟨xs, acc, hacc, _, hq2⟩ := track_inv hq
    rw [hq2]
    simp only [hv] at hacc
    injection hacc with hacc
    subst hacc
    refine ⟨rfl, ?_⟩
    intro w hw
    simp at hw
    subst hw
    exact ⟨v1, v2⟩

theorem Bnd.congr {N : Int} {t : Nat} {s' : St α} (h : Bnd N s t) (h1 : s'.inner = s.inner)
    (h2 : s'.qpIter = s.qpIter) (h3 : s'.stats.subproblemIter = s.stats.subproblemIter)
    (h4 : s'.stats.accuIters = s.stats.accuIters) : Bnd N s' t :=
  ⟨by rw [h1]; exact h.inner, by rw [h2]; exact h.qpIter, by rw [h3]; exact h.sub0,
    by rw [h3]; exact h.sub, by rw [h4]; exact h.accu⟩

theorem storeIf_ok (hd : DataOK d n off) (hs : StOK d n off s) {N : Int} {t : Nat} (hN : 0 ≤ N)
    (hb : Bnd N s t) (hlim : (t + 1) * N ≤ intMax) :
    ∃ q, storeIf d s = .ok { s with stats := q } ∧
      q.subproblemIter = s.stats.subproblemIter ∧ q.iterTotal = s.stats.iterTotal ∧
      (∀ v, q.accuIters.getLast? = some v → -((t + 1 : Nat) * N) ≤ v ∧ v ≤ (t + 1 : Nat) * N) := by
  have h0 : 0 ≤ (t : Int) * N := mul_nonneg (by omega) hN
  have e1 : ((t + 1 : Nat) : Int) * N = t * N + N := by push_cast; ring
  unfold storeIf
  split
  · obtain ⟨q, h, q1, q2⟩ := storeSteps_ok hd hs hN hb hlim
    refine ⟨q, h, q1, ?_, q2⟩
    obtain ⟨_, _, _, r, _, _, _, _, _, _, _, _, _, _, hr, hst⟩ := storeSteps_inv h
    obtain ⟨_, _, _, _, hr⟩ := track_inv hr
    have := congrArg St.stats hst
    simp only at this
    rw [this, hr]
  · refine ⟨s.stats, rfl, rfl, rfl, ?_⟩
    intro v hv
    have := hb.accu v hv
    omega

theorem updateTotalIter_ok {t : Int} (h1 : s.total = some t) (h2 : s.stats.iterTotal = t) (h0 : 0 ≤ t)
    (ht : t + 1 ≤ intMax) :
    updateTotalIter s = .ok { s with total := some (t + 1), stats := { s.stats with iterTotal := t + 1 } } := by
  have : intMax = 2147483647 := rfl
  rw [updateTotalIter, h1, initd_some, ok_bind, addInt_ok (by omega) ht, ok_bind, Stats.updateIterTotal,
    if_neg (by decide), h2, addInt_ok (by omega) ht, ok_bind, ok_bind]

theorem incInner_ok {i : Int} (h1 : s.inner = some i) (h0 : 0 ≤ i) (ht : i + 1 ≤ intMax) :
    incInner s = .ok { s with inner := some (i + 1) } := by
  have : intMax = 2147483647 := rfl
  rw [incInner, h1, initd_some, ok_bind, addInt_ok (by omega) ht, ok_bind]

theorem StOK.congr {s' : St α} (h : StOK d n off s) (h1 : s'.gTilde = s.gTilde) (h2 : s'.gk = s.gk)
    (h3 : s'.xk = s.xk) (h4 : s'.ykA = s.ykA) (h5 : s'.xnew = s.xnew) (h6 : s'.pk = s.pk)
    (h7 : s'.lkTmp = s.lkTmp) (h8 : s'.statk = s.statk) (h9 : s'.cstat = s.cstat)
    (h10 : s'.bstat = s.bstat) (h11 : s'.alpha = s.alpha) (h12 : s'.rho = s.rho) (h13 : s'.yk = s.yk)
    (h14 : s'.Qk = s.Qk) (h15 : s'.Qks = s.Qks) (h16 : s'.idxC = s.idxC) (h17 : s'.qpIter = s.qpIter)
    (h18 : s'.qpExit = s.qpExit) (h19 : s'.work = s.work) : StOK d n off s' where
  gTilde := h1 ▸ h.gTilde
  gk := h2 ▸ h.gk
  xk := h3 ▸ h.xk
  ykA := h4 ▸ h.ykA
  xnew := h5 ▸ h.xnew
  pk := h6 ▸ h.pk
  lkTmp := h7 ▸ h.lkTmp
  statk := h8 ▸ h.statk
  cstat := h9 ▸ h.cstat
  bstat := h10 ▸ h.bstat
  alpha := h11 ▸ h.alpha
  rho := h12 ▸ h.rho
  yk := h13 ▸ h.yk
  Qk := by
    have := h.Qk
    unfold QkOK at this ⊢
    rw [h14, h15, h16]
    exact this
  qpIter := h17 ▸ h.qpIter
  qpExit := h18 ▸ h.qpExit
  work := h19 ▸ h.work

/-- the first part of a pass -/
theorem advance_ok (hd : DataOK d n off) (hs : StOK d n off s) {N : Int} {t k : Nat} (hN : 0 ≤ N)
    (hl : Live d.opts s t k) (hb : Bnd N s t) (ht : (t : Int) + 1 ≤ intMax)
    (hlim : (t + 1) * N ≤ intMax) :
    ∃ s', advance d s = .ok s' ∧ StOK d n off s' ∧ Bnd N s' (t + 1) ∧
      s'.stats.subproblemIter ≤ (t + 1) * N := by
  obtain ⟨x, lx, h1⟩ := updateStep_ok hd hs.toArrOK
  have hs1 : StOK d n off { s with xk := some x } := { hs with xk := ⟨x, rfl, lx⟩ }
  have hb1 : Bnd N { s with xk := some x } t := hb.congr rfl rfl rfl rfl
  have a1 : ({ s with xk := some x } : St α).outer = some (k : Int) := hl.outer
  have a2 : ({ s with xk := some x } : St α).total = some (t : Int) := hl.total
  have a3 : ({ s with xk := some x } : St α).stats.iterTotal = (t : Int) := hl.iterTotal
  generalize ({ s with xk := some x } : St α) = s1 at *
  obtain ⟨a, b, c, la, lb, lc, h2⟩ := updateStationarity_ok hd hs1
  have hs2 : StOK d n off { s1 with statk := some a, cstat := some b, bstat := c } :=
    { hs1 with statk := la, cstat := lb, bstat := lc }
  have hb2 : Bnd N { s1 with statk := some a, cstat := some b, bstat := c } t :=
    hb1.congr rfl rfl rfl rfl
  have b1 : ({ s1 with statk := some a, cstat := some b, bstat := c } : St α).outer = some (k : Int) := a1
  have b2 : ({ s1 with statk := some a, cstat := some b, bstat := c } : St α).total = some (t : Int) := a2
  have b3 : ({ s1 with statk := some a, cstat := some b, bstat := c } : St α).stats.iterTotal = (t : Int) := a3
  generalize ({ s1 with statk := some a, cstat := some b, bstat := c } : St α) = s2 at *
  obtain ⟨i, hi, i0, i1⟩ := hb2.inner
  obtain ⟨l, h3⟩ := printIteration_ok hd hs2 (i := i) (k := k) hi b1
  have hs3 : StOK d n off { s2 with out := l } := { hs2 with }
  have hb3 : Bnd N { s2 with out := l } t := hb2.congr rfl rfl rfl rfl
  have c1 : ({ s2 with out := l } : St α).inner = some i := hi
  have c2 : ({ s2 with out := l } : St α).total = some (t : Int) := b2
  have c3 : ({ s2 with out := l } : St α).stats.iterTotal = (t : Int) := b3
  generalize ({ s2 with out := l } : St α) = s3 at *
  obtain ⟨q, h4, q1, q3, q2⟩ := storeIf_ok hd hs3 hN hb3 hlim
  have hs4 : StOK d n off { s3 with stats := q } := { hs3 with }
  have h5 := updateTotalIter_ok (s := { s3 with stats := q }) c2 (by simp only [q3, c3]) (by omega) ht
  simp only at h5
  have h6 := incInner_ok (s := { s3 with stats := { q with iterTotal := (t : Int) + 1 }, total := some ((t : Int) + 1) })
    c1 i0 (by omega)
  refine ⟨_, by rw [advance, h1, ok_bind, h2, ok_bind, h3, ok_bind, h4, ok_bind, h5, ok_bind, h6], ?_, ?_, ?_⟩
  · exact { hs4 with }
  · refine ⟨⟨i + 1, rfl, by omega, by push_cast; omega⟩, hb3.qpIter, ?_, ?_, q2⟩
    · simp only [q1]; exact hb3.sub0
    · simp only [q1]
      have := hb3.sub
      have e2 : ((t : Int) + 1) * N = t * N + N := by ring
      have e3 : (((t + 1 : Nat) : Int) + 1) * N = t * N + N + N := by push_cast; ring
      rw [e3]
      omega
  · simp only [q1]; exact hb3.sub

/-! ## penalty updates -/

theorem setQk_ok (hd : DataOK d n off) (hr : ∃ r, s.rho = some r) (hi : d.sparse = true → s.idxC = [])
    (hq : d.sparse = false → Has s.Qk (n.nV * n.nV)) :
    ∃ a b c, setQk d s = .ok { s with Qk := a, Qks := b, idxC := c } ∧
      QkOK d n { s with Qk := a, Qks := b, idxC := c } := by
  obtain ⟨r, hr⟩ := hr
  rcases hd.Q.cases with ⟨hsp, Q, hQ, vQ, mQ, nQ⟩ | ⟨hsp, Q, hQ, lQ⟩
  · rcases hd.C.cases with ⟨_, C, hC, vC, mC, nC⟩ | ⟨hsp', _⟩
    · refine ⟨s.Qk, some (mcsc Q C n.nV (Ent.val r)), cpos 0 (mall Q C n.nV), ?_, ?_⟩
      · simp only [setQk, hd.dims, hr, hsp, hQ, hC, initd_some, deref_some, ok_bind, if_true,
          mergeQC_ok r Q C vQ.toValidPtr vC.toValidPtr n.nV nQ nC, hi hsp, List.nil_append]
        congr 3
        simp [mcsc, cscOf, buildOf, createCSC]
      · rw [QkOK, if_pos hsp]
        exact ⟨Q, C, _, hQ, hC, rfl, rfl⟩
    · simp [hsp] at hsp'
  · rcases hd.C.cases with ⟨hsp', _⟩ | ⟨_, C, hC, lC⟩
    · simp [hsp] at hsp'
    · obtain ⟨qk, hqk, lqk⟩ := hq hsp
      refine ⟨some (grid n.nV n.nV fun i j => one *. gt Q (i * n.nV + j) +. r *. gt C (i * n.nV + j)), s.Qks, s.idxC, ?_, ?_⟩
      · simp only [setQk, hd.dims, hr, hsp, hQ, hC, hqk, initd_some, deref_some, ok_bind, Bool.false_eq_true, if_false]
        rw [weightedAdd_ok (by simpa [Src.val] using lQ) (by simpa [Src.val] using lC) lqk, ok_bind]
        simp only [Src.val]
      · rw [QkOK, hsp]
        exact ⟨_, rfl, by simp⟩

theorem updateQk_ok (hd : DataOK d n off) (hr : ∃ r, s.rho = some r) (h : QkOK d n s) :
    ∃ a b, updateQk d s = .ok { s with Qk := a, Qks := b } ∧ QkOK d n { s with Qk := a, Qks := b } := by
  obtain ⟨r, hr⟩ := hr
  rcases hd.Q.cases with ⟨hsp, Q, hQ, vQ, mQ, nQ⟩ | ⟨hsp, Q, hQ, lQ⟩
  · rcases hd.C.cases with ⟨_, C, hC, vC, mC, nC⟩ | ⟨hsp', _⟩
    · rw [QkOK, if_pos hsp] at h
      obtain ⟨Q', C', v, h1, h2, h3, h4⟩ := h
      rw [hQ] at h1; rw [hC] at h2
      injection h1 with h1; injection h2 with h2
      subst h1 h2
      refine ⟨s.Qk, some (mcsc Q C n.nV (Ent.bump (r *. (one -. one /. d.opts.factor)) v)), ?_, ?_⟩
      · simp only [updateQk, hd.dims, hr, hsp, h3, hC, initd_some, deref_some, ok_bind, if_true, h4]
        rw [mcsc_x, bumpQks_ok _ _ _ vC.toValidPtr _ _ nC, ok_bind, mcsc_setx]
      · rw [QkOK, if_pos hsp]
        exact ⟨Q, C, _, hQ, hC, rfl, h4⟩
    · simp [hsp] at hsp'
  · rcases hd.C.cases with ⟨hsp', _⟩ | ⟨_, C, hC, lC⟩
    · simp [hsp] at hsp'
    · rw [QkOK, hsp] at h
      obtain ⟨qk, hqk, lqk⟩ := h
      refine ⟨some (grid n.nV n.nV fun i j => one *. gt Q (i * n.nV + j) +. r *. gt C (i * n.nV + j)), s.Qks, ?_, ?_⟩
      · simp only [updateQk, hd.dims, hr, hsp, hQ, hC, hqk, initd_some, deref_some, ok_bind, Bool.false_eq_true, if_false]
        rw [weightedAdd_ok (by simpa [Src.val] using lQ) (by simpa [Src.val] using lC) lqk, ok_bind]
        simp only [Src.val]
      · rw [QkOK, hsp]
        exact ⟨_, rfl, by simp⟩

theorem updateGTilde_ok (hd : DataOK d n off) (hr : ∃ r, s.rho = some r) (hg : Has s.gTilde n.nV) :
    ∃ a, Has a n.nV ∧ updateGTilde d s = .ok { s with gTilde := a } := by
  obtain ⟨r, hr⟩ := hr
  unfold updateGTilde
  rcases hd.gPhi with h | ⟨gp, h, l⟩
  · rw [h]
    exact ⟨s.gTilde, hg, rfl⟩
  · obtain ⟨g, h1, l1⟩ := hd.g
    obtain ⟨t, h2, l2⟩ := hg
    rw [h]
    refine ⟨_, ?_, by
      simp only [hd.dims, hr, h1, h2, initd_some, deref_some, ok_bind]
      rw [weightedVecAdd_ok (by simpa [Src.val] using l1) (by simpa [Src.val] using l) l2, ok_bind]⟩
    exact ⟨_, rfl, by simp⟩

theorem updateRhoOpt_keeps (st : Stats α) (r : α) : (st.updateRhoOpt r).2.subproblemIter = st.subproblemIter ∧
    (st.updateRhoOpt r).2.accuIters = st.accuIters ∧ (st.updateRhoOpt r).2.iterOuter = st.iterOuter := by
  unfold Stats.updateRhoOpt
  split <;> exact ⟨rfl, rfl, rfl⟩

theorem updatePenalty_ok (hd : DataOK d n off) (hs : StOK d n off s) :
    ∃ s', updatePenalty d s = .ok s' ∧ StOK d n off s' := by
  obtain ⟨r, hr⟩ := hs.rho
  rw [updatePenalty, hr, initd_some, ok_bind]
  have hs1 : StOK d n off { s with
    hist := if d.opts.nDyn > 0 then [] else s.hist
    rho := some (r *. d.opts.factor)
    stats := (s.stats.updateRhoOpt (r *. d.opts.factor)).2 } := { hs with rho := ⟨_, rfl⟩ }
  simp only
  generalize ({ s with
    hist := if d.opts.nDyn > 0 then [] else s.hist
    rho := some (r *. d.opts.factor)
    stats := (s.stats.updateRhoOpt (r *. d.opts.factor)).2 } : St α) = s1 at *
  obtain ⟨a, b, h1, h2⟩ := updateQk_ok hd hs1.rho hs1.Qk
  have hs2 : StOK d n off { s1 with Qk := a, Qks := b } := { hs1 with Qk := h2 }
  rw [h1, ok_bind]
  generalize ({ s1 with Qk := a, Qks := b } : St α) = s2 at *
  obtain ⟨c, h3, h4⟩ := updateGTilde_ok hd hs2.rho hs2.gTilde
  exact ⟨_, h4, { hs2 with gTilde := h3 }⟩

theorem bump_ok (hd : DataOK d n off) (hs : StOK d n off s) {N : Int} {t k : Nat}
    (hl : Live d.opts s t k) (hb : Bnd N s t) (hk : (k : Int) + 1 ≤ intMax) :
    ∃ s', bump d s = .ok s' ∧ StOK d n off s' ∧ Bnd N s' t ∧
      s'.stats.subproblemIter = s.stats.subproblemIter := by
  have hI : intMax = 2147483647 := rfl
  obtain ⟨s1, h1, hs1⟩ := updatePenalty_ok hd hs
  obtain ⟨r, a, b, c, hr, e1⟩ := updatePenalty_inv h1
  obtain ⟨k1, k2, k3⟩ := updateRhoOpt_keeps s.stats (r *. d.opts.factor)
  have f1 : s1.outer = some (k : Int) := by rw [e1]; exact hl.outer
  have f2 : s1.stats.iterOuter = k := by rw [e1]; exact k3.trans hl.iterOuter
  have f3 : s1.stats.subproblemIter = s.stats.subproblemIter := by rw [e1]; exact k1
  have f4 : s1.stats.accuIters = s.stats.accuIters := by rw [e1]; exact k2
  have f5 : s1.qpIter = s.qpIter := by rw [e1]
  clear e1
  have h2 : s1.stats.updateIterOuter 1 = .ok (.successfulReturn, { s1.stats with iterOuter := (k : Int) + 1 }) := by
    rw [Stats.updateIterOuter, if_neg (by decide), f2, addInt_ok (by omega) hk, ok_bind]
  have h3 : updateOuterIter s1 = .ok { s1 with outer := some ((k : Int) + 1), stats := { s1.stats with iterOuter := (k : Int) + 1 } } := by
    rw [updateOuterIter, f1, initd_some, ok_bind, addInt_ok (by omega) hk, ok_bind, h2, ok_bind]
  refine ⟨{ s1 with outer := some ((k : Int) + 1), stats := { s1.stats with iterOuter := (k : Int) + 1 }, inner := some 0 }, by rw [bump, h1, ok_bind, h3, ok_bind], { hs1 with }, ?_, f3⟩
  exact ⟨⟨0, rfl, le_refl _, by omega⟩, by simp only [f5]; exact hb.qpIter, by simp only [f3]; exact hb.sub0,
      by simp only [f3]; exact hb.sub, by simp only [f4]; exact hb.accu⟩

theorem histCheck_ok (eta cur : α) (hist : List α) (m : Nat) (h : m ≤ hist.length) :
    ∃ b, histCheck eta cur hist m = .ok b := by
  unfold histCheck
  rcases loopE_inv (fun _ (_ : Unit) => True) (fun (_ : Unit) => True) m (fun i (_ : Unit) => do
    let h ← rd hist i
    if cur <. eta *. h then .ok (.inr ()) else .ok (.inl ())) () trivial (by
      intro i hi _ _
      rw [rd_ok (show i < hist.length by omega), ok_bind]
      split
      · exact Or.inr ⟨(), rfl, trivial⟩
      · exact Or.inl ⟨(), rfl, trivial⟩) with ⟨t, ht, _⟩ | ⟨t, ht, _⟩
  · exact ⟨_, by rw [ht, ok_bind]⟩
  · exact ⟨_, by rw [ht, ok_bind]⟩

theorem leyffer_ok (hd : DataOK d n off) (hx : Has s.xk n.nV) :
    ∃ r, leyfferCheckPositive d s = .ok r := by
  obtain ⟨c, hc⟩ := complementarityCheck_ok hd hx
  obtain ⟨phi, hp⟩ := getPhi_ok hd hx
  unfold leyfferCheckPositive
  split
  · exact ⟨_, rfl⟩
  · rw [hp, ok_bind]
    split
    · exact ⟨_, rfl⟩
    · rw [hc, ok_bind]
      split
      · exact ⟨_, rfl⟩
      · obtain ⟨b, hb⟩ := histCheck_ok d.opts.eta phi s.hist (toSizeT d.opts.nDyn) (by omega)
        exact ⟨_, by rw [hb, ok_bind]⟩

theorem dynamicPenalty_ok (hd : DataOK d n off) (hs : StOK d n off s) {N : Int} {t k : Nat}
    (hl : Live d.opts s t k) (hb : Bnd N s t) (hk : (k : Int) + 1 ≤ intMax) :
    ∃ s', dynamicPenalty d s = .ok s' ∧ StOK d n off s' ∧ Bnd N s' t ∧
      s'.stats.subproblemIter = s.stats.subproblemIter := by
  obtain ⟨r, hr⟩ := leyffer_ok hd hs.xk
  obtain ⟨hh, hr2⟩ := leyffer_inv hr
  have hs2 : StOK d n off r.2 := by rw [hr2]; exact { hs with }
  have hb2 : Bnd N r.2 t := by rw [hr2]; exact hb.congr rfl rfl rfl rfl
  have hl2 : Live d.opts r.2 t k := by rw [hr2]; exact hl.congr rfl rfl rfl rfl rfl
  simp only [dynamicPenalty, hr, ok_bind]
  split
  · obtain ⟨s', h1, h2, h3, h4⟩ := bump_ok hd hs2 hl2 hb2 hk
    exact ⟨s', h1, h2, h3, by rw [h4, hr2]⟩
  · exact ⟨_, rfl, hs2, hb2, by rw [hr2]⟩

/-! ## acceptance -/

theorem shiftDuals_ok (rho : α) (tmp : List α) (o m : Nat) (y : List α) (ht : m ≤ tmp.length)
    (hy : o + m ≤ y.length) : ∃ v, v.length = y.length ∧ shiftDuals rho tmp o m y = .ok v := by
  obtain ⟨v, hv, hl⟩ := loop_inv (fun _ (v : List α) => v.length = y.length) m (fun i y => do
    let v ← rd y (o + i)
    let t ← rd tmp i
    wr y (o + i) (v -. rho *. t)) y rfl (by
      intro i hi v hv
      rw [rd_ok (by omega), ok_bind, rd_ok (by omega), ok_bind, wr_ok (by omega)]
      exact ⟨_, rfl, by simpa using hv⟩)
  exact ⟨v, hl, hv⟩

theorem transformDuals_ok (hd : DataOK d n off) (hs : ArrOK n s) (hy : Has s.yk (off + n.nA)) :
    ∃ y, y.length = off + n.nA ∧ transformDuals e d s = .ok { s with yk := some y } := by
  obtain ⟨r, hr⟩ := hs.rho
  obtain ⟨x, hx, lx⟩ := hs.xk
  obtain ⟨y, hy, ly⟩ := hy
  obtain ⟨t1, lt1, ht1⟩ := mulDS_ok hd.R lx
  obtain ⟨t2, lt2, ht2⟩ := mulDS_ok hd.L lx
  have hA : n.nA = n.nC + 2 * n.nComp := rfl
  obtain ⟨y1, ly1, hy1⟩ := shiftDuals_ok r t1 (off + n.nC) n.nComp y (by omega) (by omega)
  obtain ⟨y2, ly2, hy2⟩ := shiftDuals_ok r t2 (off + n.nC + n.nComp) n.nComp y1 (by omega) (by omega)
  refine ⟨y2, by omega, ?_⟩
  simp only [transformDuals, hd.dims, hd.boxOff, hr, hx, hy, initd_some, deref_some, ok_bind]
  rw [ht1 _ (by simp [Env.alloc]), ok_bind, hy1, ok_bind, ht2 _ lt1, ok_bind, hy2, ok_bind]

theorem classify_ok (tol : α) (ya : List α) (nC nComp : Nat) (l : List Nat) (a b : Bool)
    (hy : nC + nComp + nComp ≤ ya.length) (hl : ∀ i ∈ l, i < nComp) :
    ∃ t, classify tol ya nC nComp l a b = .ok t := by
  induction l generalizing a b with
  | nil => exact ⟨_, rfl⟩
  | cons i is ih =>
    have hi := hl i (by simp)
    simp only [classify]
    rw [rd_ok (by omega), ok_bind, rd_ok (by omega), ok_bind]
    have ih' := fun a b => ih a b (fun j hj => hl j (by simp [hj]))
    split
    · split
      · exact ⟨_, rfl⟩
      · exact ih' _ _
    · exact ih' _ _

theorem weak_ok (hd : DataOK d n off) (hx : Has s.xk n.nV) :
    ∃ w, weakComplementarities e d s = .ok w ∧ ∀ i ∈ w, i < n.nComp := by
  obtain ⟨x, hx, lx⟩ := hx
  obtain ⟨t1, lt1, ht1⟩ := mulDS_ok hd.R lx
  obtain ⟨t2, lt2, ht2⟩ := mulDS_ok hd.L lx
  simp only [weakComplementarities, hd.dims, hx, initd_some, deref_some, ok_bind]
  rw [ht2 _ (by simp [Env.alloc]), ok_bind, ht1 _ (by simp [Env.alloc]), ok_bind]
  obtain ⟨w, hw, h⟩ := loop_inv (fun i (acc : List Nat) => ∀ j ∈ acc, j < i) n.nComp (fun i acc => do
    let l ← rd t2 i
    if l <=. d.opts.complTol then do
      let r ← rd t1 i
      if r <=. d.opts.complTol then .ok (acc ++ [i]) else .ok acc
    else .ok acc) [] (by simp) (by
      intro i hi acc hacc
      rw [rd_ok (show i < t2.length by omega), ok_bind]
      split
      · rw [rd_ok (show i < t1.length by omega), ok_bind]
        split
        · refine ⟨_, rfl, ?_⟩
          intro j hj
          rcases List.mem_append.mp hj with hj | hj
          · have := hacc j hj; omega
          · simp at hj; omega
        · exact ⟨_, rfl, fun j hj => by have := hacc j hj; omega⟩
      · exact ⟨_, rfl, fun j hj => by have := hacc j hj; omega⟩)
  exact ⟨w, hw, h⟩

/-- sizes of the iteration data after a run -/
structure After (d : Data α) (n : Dims) (off : Nat) (s : St α) : Prop extends ArrOK n s where
  yk : Has s.yk (off + n.nA)
  Qk : d.sparse = false → Has s.Qk (n.nV * n.nV)

theorem StOK.after (hs : StOK d n off s) : After d n off s := { hs with
  Qk := fun h => by
    have := hs.Qk
    rwa [QkOK, if_neg (by simp [h])] at this }

theorem accept_ok (hd : DataOK d n off) (hs : StOK d n off s) :
    ∃ q, accept e d s = .ok q ∧ After d n off q.2 ∧ ∃ t, q.2.algo = some t := by
  obtain ⟨y, ly, h1⟩ := transformDuals_ok (e := e) hd hs.toArrOK hs.yk
  have hs1 : StOK d n off { s with yk := some y } := { hs with yk := ⟨y, rfl, ly⟩ }
  generalize ({ s with yk := some y } : St α) = s1 at *
  obtain ⟨w, hw, hwl⟩ := weak_ok (e := e) hd hs1.xk
  obtain ⟨ya, hya, lya⟩ := hs1.ykA
  have hA : n.nA = n.nC + 2 * n.nComp := rfl
  obtain ⟨t, ht⟩ := classify_ok d.opts.complTol ya n.nC n.nComp w true true (by omega) hwl
  have h2 : determineStationarityType e d s1 = .ok { s1 with algo := some t } := by
    rw [determineStationarityType, hd.dims, initd_some, ok_bind, hw, ok_bind, hya, deref_some, ok_bind, ht,
      ok_bind]
  have hs2 : StOK d n off { s1 with algo := some t } := { hs1 with }
  have ha : ({ s1 with algo := some t } : St α).algo = some t := rfl
  generalize ({ s1 with algo := some t } : St α) = s2 at *
  refine ⟨_, by rw [accept, h1, ok_bind, h2, ok_bind, ha, initd_some, ok_bind], ?_, ⟨t, ?_⟩⟩
  · simp only
    split <;> exact { hs2.after with }
  · simp only
    split <;> rfl

/-! ## subproblems -/

theorem copyOpt_ok {o : Option (List α)} {k : Nat} (h : HasOpt o k) : copyOpt o k = .ok o := by
  rcases h with rfl | ⟨v, rfl, hv⟩
  · rfl
  · simp only [copyOpt]
    rw [copyN_ok hv, ok_bind]

/-- the answers stay below a bound -/
def AnsBnd (e : Env α) (N : Int) : Prop := ∀ k r, -N ≤ (e.qp k r).iter ∧ (e.qp k r).iter ≤ N

/-- what a subproblem call needs: OSQP has its workspace, or gets one and accepts the guesses -/
def WorkOK (e : Env α) (d : Data α) (s : St α) (init : Bool) : Prop :=
  ∀ Q A, d.sub = some (.osqp Q A) →
    (init = false → s.work = .live) ∧
    (init = true → s.work ≠ .dangling ∧ ∀ r, (e.qp s.calls r).setup = true ∧
      (e.qp s.calls r).warmX = true ∧ (e.qp s.calls r).warmY = true)

/-- shape of the duals before a subproblem call: a null pointer, or an array of the right size -/
theorem subSolve_ok (hd : DataOK d n off) (hs : ArrOK n s) (hy : HasOpt s.yk (off + n.nA)) {N : Int}
    (he : AnsBnd e N) {init : Bool} (hw : WorkOK e d s init) :
    ∃ rv a it ex w, subSolve e d s init = .ok (rv, { s with
        qpIter := some it
        qpExit := some ex
        work := w
        calls := s.calls + 1
        ans := some a }) ∧
      -N ≤ it ∧ it ≤ N ∧ ((∃ Q A, d.sub = some (.osqp Q A)) → w = .live) ∧
      (init = false → w = s.work) := by
  obtain ⟨g, hg, lg⟩ := hs.gk
  obtain ⟨lA, hlA, llA⟩ := hd.lbA
  obtain ⟨uA, huA, luA⟩ := hd.ubA
  obtain ⟨x, hx, lx⟩ := hs.xk
  have hx0 : ∀ init : Bool, HasOpt (if init then s.xk else none) n.nV := by
    intro init
    cases init
    · exact Or.inl rfl
    · exact Or.inr ⟨x, hx, lx⟩
  have hy0 : ∀ init : Bool, HasOpt (if init then s.yk else none) (off + n.nA) := by
    intro init
    cases init
    · exact Or.inl rfl
    · exact hy
  have hq : ∀ sub : Sub α, off = n.nV → (∀ Q A, sub ≠ .osqp Q A) → d.sub = some sub →
      ∃ rv a it ex w, qpoasesSolve e d s init sub n.nV n.nA = .ok (rv, { s with
        qpIter := some it
        qpExit := some ex
        work := w
        calls := s.calls + 1
        ans := some a }) ∧
      -N ≤ it ∧ it ≤ N ∧ ((∃ Q A, d.sub = some (.osqp Q A)) → w = .live) ∧
      (init = false → w = s.work) := by
    intro sub ho hsub hds
    subst ho
    refine ⟨_, _, _, _, s.work, by
      rw [qpoasesSolve, hg, deref_some, ok_bind, copyN_ok lg, ok_bind, hlA, deref_some, ok_bind, copyN_ok llA,
        ok_bind, huA, deref_some, ok_bind, copyN_ok luA, ok_bind, copyOpt_ok hd.lb, ok_bind,
        copyOpt_ok hd.ub, ok_bind, copyOpt_ok (hx0 init), ok_bind, copyOpt_ok (hy0 init), ok_bind],
      (he _ _).1, (he _ _).2, ?_, fun _ => rfl⟩
    rintro ⟨Q, A, h⟩
    rw [hds] at h
    injection h with h
    exact absurd h (hsub Q A)
  rcases hd.sub with ⟨Q, A, hsub, ho⟩ | ⟨Q, A, hsub, ho⟩ | ⟨Q, A, hsub, hQn, hAm, ho, hlb, hub⟩
  · rw [subSolve, hsub, initd_some, ok_bind]
    have := hq _ ho (by simp) hsub
    rw [hsub] at this
    exact this
  · rw [subSolve, hsub, initd_some, ok_bind]
    have := hq _ ho (by simp) hsub
    rw [hsub] at this
    exact this
  · rw [subSolve, hsub, initd_some, ok_bind]
    subst ho
    have hy1 := hy0 init
    rw [Nat.zero_add] at hy1
    obtain ⟨w1, w2⟩ := hw Q A hsub
    have key : osqpSolve e d s init (.osqp Q A) Q.n A.m = osqpFinish s init
        (if init && (e.qp s.calls ⟨.osqp Q A, init, g, lA, uA, if init then s.xk else none,
          if init then s.yk else none, none, none, d.opts.qpoases, d.opts.osqp⟩).setup then .live else s.work)
        (e.qp s.calls ⟨.osqp Q A, init, g, lA, uA, if init then s.xk else none,
          if init then s.yk else none, none, none, d.opts.qpoases, d.opts.osqp⟩) := by
      rw [osqpSolve, if_neg (by simp [hlb, hub]), hg, deref_some, ok_bind, hQn, copyN_ok lg, ok_bind, hlA,
        deref_some, ok_bind, hAm, copyN_ok llA, ok_bind, huA, deref_some, ok_bind, copyN_ok luA, ok_bind,
        copyOpt_ok (hx0 init), ok_bind, copyOpt_ok hy1, ok_bind]
    dsimp only
    rw [key]
    have hres : ∀ r : Req α, ∃ rv a it ex w,
        osqpFinish s init (if init && (e.qp s.calls r).setup then .live else s.work) (e.qp s.calls r) =
          .ok (rv, { s with
        qpIter := some it
        qpExit := some ex
        work := w
        calls := s.calls + 1
        ans := some a }) ∧
      -N ≤ it ∧ it ≤ N ∧ w = .live ∧ (init = false → w = s.work) := by
      intro r
      have hl : (if init && (e.qp s.calls r).setup then Work.live else s.work) = .live := by
        cases init
        · simpa using w1 rfl
        · simp [((w2 rfl).2 r).1]
      rw [hl]
      have hwx : ¬ (init = true ∧ s.xk ≠ none ∧ (Work.live = Work.null ∨ (e.qp s.calls r).warmX = false)) := by
        rintro ⟨h1, _, h2 | h2⟩
        · exact absurd h2 (by decide)
        · rw [((w2 h1).2 r).2.1] at h2; exact absurd h2 (by decide)
      have hwy : ¬ (init = true ∧ s.yk ≠ none ∧ (Work.live = Work.null ∨ (e.qp s.calls r).warmY = false)) := by
        rintro ⟨h1, _, h2 | h2⟩
        · exact absurd h2 (by decide)
        · rw [((w2 h1).2 r).2.2] at h2; exact absurd h2 (by decide)
      refine ⟨_, _, _, _, _, by
        rw [osqpFinish, if_neg (by decide)]
        simp only
        rw [if_neg hwx, if_neg hwy, if_neg (by decide)],
        (he _ _).1, (he _ _).2, rfl, fun h => (w1 h).symm⟩
    obtain ⟨rv, a, it, ex, w, h, b1, b2, b3, b4⟩ := hres _
    exact ⟨rv, a, it, ex, w, h, b1, b2, fun _ => b3, b4⟩

theorem fillAns_ok (f : Nat → α) {k : Nat} {out : List α} (h : out.length = k) :
    fillAns f k out = .ok (tab k f) := by
  unfold fillAns
  apply loop_fill f _ _ _ h
  intro i hi
  rw [wr_ok (by simp; omega)]

theorem getSolution_ok (hd : DataOK d n off) (ha : ∃ a, s.ans = some a) (hx : Has s.xnew n.nV)
    (hy : Has s.yk (off + n.nA)) :
    ∃ x y, getSolution d s = .ok (x, y) ∧ x.length = n.nV ∧ y.length = off + n.nA := by
  obtain ⟨a, ha⟩ := ha
  obtain ⟨x, hx, lx⟩ := hx
  obtain ⟨y, hy, ly⟩ := hy
  rcases hd.sub with ⟨Q, A, hsub, ho⟩ | ⟨Q, A, hsub, ho⟩ | ⟨Q, A, hsub, hQn, hAm, ho, hlb, hub⟩
  · subst ho
    exact ⟨tab n.nV a.x, tab (n.nV + n.nA) a.y, by
      simp only [getSolution, hsub, ha, hx, hy, initd_some, deref_some, ok_bind, fillAns_ok _ lx,
        fillAns_ok _ ly], by simp, by simp⟩
  · subst ho
    exact ⟨tab n.nV a.x, tab (n.nV + n.nA) a.y, by
      simp only [getSolution, hsub, ha, hx, hy, initd_some, deref_some, ok_bind, fillAns_ok _ lx,
        fillAns_ok _ ly], by simp, by simp⟩
  · subst ho
    have ly' : y.length = n.nA := by omega
    exact ⟨tab n.nV a.x, tab n.nA fun i => -. a.y i, by
      simp only [getSolution, hsub, ha, hx, hy, initd_some, deref_some, ok_bind, hQn, hAm, fillAns_ok _ lx,
        fillAns_ok _ ly'], by simp, by simp⟩

theorem takeSolution_ok (hd : DataOK d n off) (hs : ArrOK n s) (hy : Has s.yk (off + n.nA))
    (ha : ∃ a, s.ans = some a) :
    ∃ x y ya p, takeSolution d s = .ok { s with xnew := some x, yk := some y, ykA := some ya, pk := some p } ∧
      x.length = n.nV ∧ y.length = off + n.nA ∧ ya.length = n.nA ∧ p.length = n.nV := by
  obtain ⟨x, y, h1, lx, ly⟩ := getSolution_ok hd ha hs.xnew hy
  obtain ⟨ya, hya, lya⟩ := hs.ykA
  obtain ⟨xk, hx, lxk⟩ := hs.xk
  obtain ⟨p, hp, lp⟩ := hs.pk
  refine ⟨x, y, _, _, by
    rw [takeSolution, hd.dims, initd_some, ok_bind, hd.boxOff, initd_some, ok_bind, h1, ok_bind, hya, deref_some,
      ok_bind, copy_loop_ok (by simp only; omega) lya, ok_bind, hx, deref_some, ok_bind, hp, deref_some, ok_bind,
      weightedVecAdd_ok (by simpa [Src.val] using lx) (by simpa [Src.val] using lxk) lp, ok_bind], lx, ly, ?_, ?_⟩
  · simp
  · simp

theorem updateSubproblemIter_ok {st : Stats α} {it : Int} (h0 : 0 ≤ st.subproblemIter)
    (h1 : st.subproblemIter + it ≤ intMax) :
    ∃ q, st.updateSubproblemIter it = .ok q ∧ 0 ≤ q.2.subproblemIter ∧
      (q.2.subproblemIter = st.subproblemIter ∨ q.2.subproblemIter = st.subproblemIter + it) ∧
      q.2.accuIters = st.accuIters := by
  have : intMax = 2147483647 := rfl
  unfold Stats.updateSubproblemIter
  split
  · exact ⟨_, rfl, h0, Or.inl rfl, rfl⟩
  · rw [addInt_ok (by omega) h1]
    exact ⟨_, rfl, by simp only; omega, Or.inr rfl, rfl⟩

/-- a subproblem call: sizes, counters -/
theorem solveQP_ok (hd : DataOK d n off) (hs : ArrOK n s) (hy : HasOpt s.yk (off + n.nA)) {N : Int}
    (he : AnsBnd e N) {init : Bool} (hw : WorkOK e d s init) (h0 : 0 ≤ s.stats.subproblemIter)
    (h1 : s.stats.subproblemIter + N ≤ intMax) :
    ∃ r, solveQP e d s init = .ok r ∧ ArrOK n r.2 ∧ Has r.2.yk (off + n.nA) ∧
      (∃ q, r.2.qpIter = some q ∧ -N ≤ q ∧ q ≤ N) ∧ (∃ q, r.2.qpExit = some q) ∧
      ((∃ Q A, d.sub = some (.osqp Q A)) → r.2.work = .live) ∧
      0 ≤ r.2.stats.subproblemIter ∧ (r.2.stats.subproblemIter ≤ s.stats.subproblemIter ∨
        r.2.stats.subproblemIter ≤ s.stats.subproblemIter + N) ∧
      r.2.stats.accuIters = s.stats.accuIters ∧ r.2.inner = s.inner ∧ r.2.Qk = s.Qk ∧ r.2.Qks = s.Qks ∧
      r.2.idxC = s.idxC := by
  obtain ⟨rv, a, it, ex, w, h2, b1, b2, b3, _⟩ := subSolve_ok hd hs hy he hw
  obtain ⟨q, hq, q0, q1, q2⟩ := updateSubproblemIter_ok (st := s.stats) (it := it) h0 (by omega)
  obtain ⟨x, hx, lx⟩ := hs.xk
  have hq1 : (q.2.updateExitFlag ex).2.subproblemIter = q.2.subproblemIter := rfl
  have hq2 : (q.2.updateExitFlag ex).2.accuIters = q.2.accuIters := rfl
  have hyd : (s.yk.getD (e.alloc 13 (off + n.nA))).length = off + n.nA := by
    rcases hy with h | ⟨y, h, l⟩
    · rw [h]; simp [Env.alloc]
    · rw [h]; simpa using l
  have h3 : afterSolve e d { s with
        qpIter := some it
        qpExit := some ex
        work := w
        calls := s.calls + 1
        ans := some a } = .ok { s with
        qpIter := some it
        qpExit := some ex
        work := w
        calls := s.calls + 1
        ans := some a
        stats := (q.2.updateExitFlag ex).2
        yk := some (s.yk.getD (e.alloc 13 (off + n.nA))) } := by
    simp only [afterSolve, initd_some, ok_bind, hq, hd.dims, hd.nDuals, hx, Option.getD_some]
  have hA : ArrOK n { s with
        qpIter := some it
        qpExit := some ex
        work := w
        calls := s.calls + 1
        ans := some a
        stats := (q.2.updateExitFlag ex).2
        yk := some (s.yk.getD (e.alloc 13 (off + n.nA))) } := { hs with }
  have hsub : (q.2.updateExitFlag ex).2.subproblemIter ≤ s.stats.subproblemIter ∨
      (q.2.updateExitFlag ex).2.subproblemIter ≤ s.stats.subproblemIter + N := by
    rw [hq1]
    rcases q1 with h | h <;> omega
  rw [solveQP, h2, ok_bind, h3, ok_bind]
  simp only
  split
  · exact ⟨_, rfl, hA, ⟨_, rfl, hyd⟩, ⟨_, rfl, b1, b2⟩, ⟨_, rfl⟩, b3, by simp only [hq1]; exact q0, hsub,
      hq2.trans q2, rfl, rfl, rfl, rfl⟩
  · obtain ⟨x', y', ya', p', h4, l1, l2, l3, l4⟩ := takeSolution_ok hd hA ⟨_, rfl, hyd⟩ ⟨_, rfl⟩
    rw [h4, ok_bind]
    exact ⟨_, rfl, { hA with xnew := ⟨_, rfl, l1⟩, ykA := ⟨_, rfl, l3⟩, pk := ⟨_, rfl, l4⟩ }, ⟨_, rfl, l2⟩,
      ⟨_, rfl, b1, b2⟩, ⟨_, rfl⟩, b3, by simp only [hq1]; exact q0, hsub,
      hq2.trans q2, rfl, rfl, rfl, rfl⟩

end LCQ
