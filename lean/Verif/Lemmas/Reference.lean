import Verif.Spec.Reference
import Verif.Lemmas.Local
import Verif.Props.Dynamic
import Mathlib.Tactic.LinearCombination

/-!
# The main loop follows the algorithm of `Spec/Reference`
-/

set_option linter.unusedSectionVars false

namespace LCQ
open Scalar Ext
open scoped Matrix

variable {K : Type} [Field K] [LinearOrder K] {n : Dims} {P : Prob K n} {e : Env (Ext K)}
  {o : Obj (Ext K)} {x0 : Fin n.nV → K} {r0 f : K} {d : Data (Ext K)} {lA uA : Fin n.nA → Ext K} {l u : Fin n.nV → Ext K}

/-- the problem, as the reference algorithm sees it -/
def Prob.ref (P : Prob K n) (lA uA : Fin n.nA → Ext K) (l u : Fin n.nV → Ext K) : Ref.Pb K n.nV :=
  ⟨P.Q, P.g, P.C, P.gPhi, P.phi, Feasible P lA uA l u⟩

/-- the options and the random numbers, as the reference algorithm sees them -/
structure Ref.Par.Of (a : Ref.Par K) (e : Env (Ext K)) (op : Options (Ext K)) : Prop where
  factor : op.factor = fin a.factor
  statTol : op.statTol = fin a.statTol
  complTol : op.complTol = fin a.complTol
  maxRho : op.maxRho = fin a.maxRho
  eta : op.eta = fin a.eta
  maxIter : op.maxIter = a.maxIter
  nDyn : op.nDyn = a.nDyn
  zeroFirst : op.zeroFirst = a.zeroFirst
  perturb : op.perturb = a.perturb
  rnd : e.rnd = a.rnd

/-- the solver's state at the head of the loop represents the state of the reference algorithm -/
structure Sim (d : Data (Ext K)) (n : Dims) (P : Prob K n) (off : Nat) (a : Ref.Par K) (s : St (Ext K))
    (t : Ref.St K n.nV) : Prop where
  vars : ∃ y : Fin (off + n.nA) → K, XSt d n P off s t.r (decide (0 < t.outer)) t.x t.p t.a y ∧
    P.AAᵀ *ᵥ yLin y + yBox y = t.c
  outer : s.outer = some t.outer
  out0 : 0 ≤ t.outer
  inner : s.inner = some t.inner
  total : s.total = some t.total
  hist : s.hist = emb t.hist
  hlen : a.nDyn = 0 ∨ t.hist.length ≤ a.nDyn
  used : s.rnd = t.used

/-- what can be seen of a state at the end of a run -/
structure Ref.Shows (s : LCQ.St (Ext K)) {m : Nat} (t : Ref.St K m) : Prop where
  x : s.xk = some (ev t.x)
  p : s.pk = some (ev t.p)
  a : s.alpha = some (fin t.a)
  r : s.rho = some (fin t.r)
  outer : s.outer = some t.outer
  inner : s.inner = some t.inner
  total : s.total = some t.total
  hist : s.hist = emb t.hist
  used : s.rnd = t.used

variable {off : Nat} {a : Ref.Par K} {s s' : LCQ.St (Ext K)} {t : Ref.St K n.nV}

theorem Sim.shows (h : Sim d n P off a s t) : Ref.Shows s t := by
  obtain ⟨y, hx, _⟩ := h.vars
  exact ⟨hx.xk, hx.pk, hx.alpha, hx.rho, h.outer, h.inner, h.total, h.hist, h.used⟩

theorem gT_ref (lA uA : Fin n.nA → Ext K) (l u : Fin n.nV → Ext K) (t : Ref.St K n.nV) :
    P.gT (decide (0 < t.outer)) t.r = Ref.lin (P.ref lA uA l u) t := by
  unfold Prob.gT Ref.lin
  by_cases h : 0 < t.outer <;> simp [h, Prob.ref]

section
variable [IsStrictOrderedRing K]

theorem Sim.advance (hd : DataIs d n P off) (hQ : P.Qᵀ = P.Q) (h : Sim d n P off a s t) (hs : advance d s = .ok s') :
    Sim d n P off a s' (Ref.move t) ∧
      s'.statk = some (ev (Ref.grad (P.ref lA uA l u) (Ref.move t) (Ref.move t).x - t.c)) := by
  obtain ⟨y, hx, hy⟩ := h.vars
  obtain ⟨g1, g2, g3, _⟩ := advance_x hd hx hs
  obtain ⟨_, _, _, _, q, _, _, T, i, hT, hi, _, _, hq, _, _, hs'⟩ := advance_inv hs
  refine ⟨⟨⟨y, g1, hy⟩, g3.trans h.outer, h.out0, ?_, ?_, ?_, h.hlen, ?_⟩, ?_⟩
  · rw [h.inner] at hi
    injection hi with hi
    rw [hs', ← hi]
    rfl
  · rw [h.total] at hT
    injection hT with hT
    rw [hs', ← hT]
    rfl
  · rw [hs', hq]; exact h.hist
  · rw [hs', hq]; exact h.used
  · rw [g2]
    congr 2
    have hsym : (P.Q + t.r • P.C)ᵀ = P.Q + t.r • P.C := by
      rw [Matrix.transpose_add, Matrix.transpose_smul, hQ, P.C_symm]
    rw [Prob.stat, tr_symm _ hsym, ← hy, gT_ref lA uA l u]
    change _ = (P.Q + t.r • P.C) *ᵥ (t.x + t.a • t.p) + Ref.lin (P.ref lA uA l u) t - _
    abel

theorem Sim.bump (hd : DataIs d n P off) (ha : a.Of e d.opts) (f0 : a.factor ≠ 0) (h : Sim d n P off a s t)
    (hs : bump d s = .ok s') : Sim d n P off a s' (Ref.bump a t) ∧ s'.statk = s.statk := by
  obtain ⟨y, hx, hy⟩ := h.vars
  obtain ⟨g1, g2, _⟩ := bump_x hd ha.factor f0 hx hs
  obtain ⟨_, _, _, _, T, _, hT, _, hs'⟩ := bump_inv hs
  have h0 := h.out0
  rw [h.outer] at hT
  injection hT with hT
  refine ⟨⟨⟨y, ?_, hy⟩, ?_, ?_, ?_, ?_, ?_, ?_, ?_⟩, g2⟩
  · have : decide (0 < (Ref.bump a t).outer) = true := by
      change decide (0 < t.outer + 1) = true
      exact decide_eq_true (by omega)
    rw [this]
    exact g1
  · rw [hs', ← hT]; rfl
  · simp only [Ref.bump]; omega
  · rw [hs']; rfl
  · rw [hs']; exact h.total
  · rw [hs']
    simp only [Ref.bump, ha.nDyn]
    by_cases hn : 0 < a.nDyn
    · rw [if_pos (by exact_mod_cast hn), if_pos hn]; rfl
    · rw [if_neg (by exact_mod_cast hn), if_neg hn]; exact h.hist
  · by_cases hn : a.nDyn = 0
    · exact Or.inl hn
    · right
      simp only [Ref.bump]
      rw [if_pos (by omega)]
      simp
  · rw [hs']; exact h.used

theorem Sim.setHist (h : Sim d n P off a s t) {w : List K} (hw : a.nDyn = 0 ∨ w.length ≤ a.nDyn) :
    Sim d n P off a { s with hist := emb w } { t with hist := w } := by
  obtain ⟨y, hx, hy⟩ := h.vars
  exact ⟨⟨y, { hx with Qk := hx.Qk.congr rfl rfl rfl }, hy⟩, h.outer, h.out0, h.inner, h.total, rfl, hw, h.used⟩

theorem Sim.dyn (hd : DataIs d n P off) (ha : a.Of e d.opts) (f0 : a.factor ≠ 0) (h : Sim d n P off a s t)
    (hs : dynamicPenalty d s = .ok s') : Sim d n P off a s' (Ref.dyn (P.ref lA uA l u) a t) ∧ s'.statk = s.statk := by
  have hN : toSizeT d.opts.nDyn = a.nDyn := by
    rw [ha.nDyn, toSizeT, if_neg (by omega)]
    simp
  obtain ⟨y, hx, hy⟩ := h.vars
  have hphi := getPhi_x hd hx.xk
  have hcom : complementarityCheck d s = .ok (decide (P.phi t.x < a.complTol)) := by
    simp only [complementarityCheck, hphi, ok_bind, ha.complTol, fin_lt]
  unfold dynamicPenalty leyfferCheckPositive at hs
  rw [hN] at hs
  unfold Ref.dyn
  change Sim d n P off a s' (if _ then t else if _ then { t with hist := t.hist ++ [P.phi t.x] }
    else if P.phi t.x < a.complTol ∨ (∃ w ∈ t.hist, P.phi t.x < a.eta * w) then { t with hist := t.hist.tail ++ [P.phi t.x] }
    else Ref.bump a { t with hist := t.hist.tail ++ [P.phi t.x] }) ∧ _
  by_cases h0 : a.nDyn = 0
  · rw [if_pos h0] at hs ⊢
    simp only [ok_bind] at hs
    injection hs with hs
    subst hs
    exact ⟨h, rfl⟩
  · rw [if_neg h0] at hs ⊢
    simp only [hphi, ok_bind] at hs
    have hl : s.hist.length = t.hist.length := by rw [h.hist]; simp [emb]
    have hle : t.hist.length ≤ a.nDyn := h.hlen.resolve_left h0
    by_cases h1 : t.hist.length < a.nDyn
    · rw [if_pos (by omega)] at hs
      rw [if_pos h1]
      simp only [ok_bind] at hs
      injection hs with hs
      subst hs
      have := h.setHist (w := t.hist ++ [P.phi t.x]) (Or.inr (by simp; omega))
      have e1 : emb (t.hist ++ [P.phi t.x]) = s.hist ++ [fin (P.phi t.x)] := by rw [h.hist]; simp [emb]
      rw [e1] at this
      exact ⟨this, rfl⟩
    · rw [if_neg (by omega)] at hs
      rw [if_neg h1]
      have hw := h.setHist (w := t.hist.tail ++ [P.phi t.x]) (Or.inr (by simp; omega))
      have e1 : emb (t.hist.tail ++ [P.phi t.x]) = s.hist.tail ++ [fin (P.phi t.x)] := by
        rw [h.hist]; simp [emb]
      rw [e1] at hw
      have e2 : histCheck d.opts.eta (fin (P.phi t.x)) s.hist a.nDyn =
          .ok (decide (¬ ∃ w ∈ t.hist, P.phi t.x < a.eta * w)) := by
        have := histCheck_eq d.opts.eta (fin (P.phi t.x)) s.hist
        rw [show s.hist.length = a.nDyn by omega] at this
        rw [this, h.hist]
        congr 1
        rw [Bool.eq_iff_iff]
        simp [emb, ha.eta]
      simp only [hcom, ok_bind, e2] at hs
      by_cases h2 : P.phi t.x < a.complTol
      · rw [if_pos (Or.inl h2)]
        simp only [h2, decide_true, if_true, ok_bind] at hs
        injection hs with hs
        subst hs
        exact ⟨hw, rfl⟩
      · by_cases h3 : ∃ w ∈ t.hist, P.phi t.x < a.eta * w
        · rw [if_pos (Or.inr h3)]
          rw [if_neg (by simp [h2])] at hs
          simp only [ok_bind] at hs
          rw [if_neg (by simpa using h3)] at hs
          injection hs with hs
          subst hs
          exact ⟨hw, rfl⟩
        · rw [if_neg (by rintro (h4 | h4); exacts [h2 h4, h3 h4])]
          rw [if_neg (by simp [h2])] at hs
          simp only [ok_bind] at hs
          rw [if_pos (by simpa using h3)] at hs
          have k := hw.bump hd ha f0 hs
          exact k

theorem Sim.gk (h : Sim d n P off a s t) (hd : DataIs d n P off) (hs : updateLinearization d s = .ok s') :
    Sim d n P off a s' t ∧ s'.statk = s.statk := by
  obtain ⟨y, hx, hy⟩ := h.vars
  obtain ⟨h1, h2⟩ := lin_x hd hx hs
  refine ⟨⟨⟨y, h2, hy⟩, ?_, h.out0, ?_, ?_, ?_, h.hlen, ?_⟩, ?_⟩ <;> rw [h1]
  · exact h.outer
  · exact h.inner
  · exact h.total
  · exact h.hist
  · exact h.used

theorem stationarityCheck_iff (hd : DataIs d n P off) (hn : 0 < n.nV) {v : Fin n.nV → K} (hv : s.statk = some (ev v))
    {ts : K} (ht : d.opts.statTol = fin ts) {b : Bool} (h : stationarityCheck d s = .ok b) :
    b = true ↔ ∀ i, |v i| < ts := by
  obtain ⟨m, h1, h2, h3⟩ := C06_finite (List.ofFn v)
  rw [List.length_ofFn] at h1
  simp only [stationarityCheck, hd.dims, hv, ht, initd_some, deref_some, ok_bind, ev, h1] at h
  injection h with h
  have hm : b = true ↔ m < ts := by rw [← h]; simp
  rw [hm]
  constructor
  · exact fun hm i => lt_of_le_of_lt (h2 _ (List.mem_ofFn.mpr ⟨i, rfl⟩)) hm
  · intro hall
    rcases h3 with ⟨h3, _⟩ | ⟨w, hw, rfl⟩
    · have := congrArg List.length h3
      simp at this
      omega
    · obtain ⟨i, rfl⟩ := List.mem_ofFn.mp hw
      exact hall i

/-- an exactly solved subproblem: the reference algorithm may take the same solution -/
theorem Qp.Kkt.ref {g v : Fin n.nV → K} {z : Fin n.nA → K} {w : Fin n.nV → K} (h : (P.subQp lA uA l u g).Kkt v z w)
    (hQ : P.Qᵀ = P.Q) (hpsd : ∀ v, 0 ≤ v ⬝ᵥ (P.Q *ᵥ v)) :
    Ref.IsMin (P.ref lA uA l u) g v ∧ P.AAᵀ *ᵥ z + w = P.Q *ᵥ v + g := by
  refine ⟨⟨feas_any h.feas, fun y hy => ?_⟩, h.stat.symm⟩
  have := h.min hQ hpsd (y := y) ⟨hy.lA, hy.uA, hy.l, hy.u⟩
  simp only [Qp.obj, Prob.subQp] at this
  change v ⬝ᵥ (P.Q *ᵥ v) / 2 + g ⬝ᵥ v ≤ y ⬝ᵥ (P.Q *ᵥ y) / 2 + g ⬝ᵥ y
  linarith

/-- codes of the loop's own exits -/
def Ref.Own (rv : RV) : Prop := rv = .successfulReturn ∨ rv = .maxIterationsReached ∨ rv = .maxPenaltyReached

theorem solveQP_own {init : Bool} {q : RV × St (Ext K)} (h : solveQP e d s init = .ok q) (ho : Ref.Own q.1) :
    q.1 = .successfulReturn := by
  obtain ⟨r, hr, h1, _⟩ := solveQP_inv h
  rw [h1] at ho ⊢
  obtain ⟨_, _, ⟨h2, _⟩ | ⟨_, _, _, _, _, ⟨h2, _⟩ | ⟨h2, _⟩ | ⟨h2, _⟩ | ⟨⟨h2, _⟩ | ⟨h2, _⟩, _⟩⟩⟩ := subSolve_ret hr <;>
    rw [h2] at ho ⊢ <;> rcases ho with ho | ho | ho <;> simp at ho

theorem Sim.next (h0 : DataOK d n off) (hd : DataIs d n P off) (hsend : Sends d n P lA uA l u)
    (hE : ExactOn e n (IsSub P lA uA l u)) (hQ : P.Qᵀ = P.Q) (hpsd : ∀ v, 0 ≤ v ⬝ᵥ (P.Q *ᵥ v)) (he : FinAns e)
    (ha : a.Of e d.opts) (h : Sim d n P off a s t) (hs : nextStep e d s = .ok (.inl s')) :
    ∃ v, Ref.IsMin (P.ref lA uA l u) (Ref.sub (P.ref lA uA l u) t) v ∧
      Sim d n P off a s' (Ref.step (P.ref lA uA l u) a t v) := by
  obtain ⟨y, hx, hy⟩ := h.vars
  obtain ⟨x', v, y', sub, la, ua, h1, h2, h3, h4, h5, h6, h7, h8, _⟩ := nextStep_x h0 hd he hx hs
  have hq := hsend.is h1 h2 h3 false (t.r • (P.C *ᵥ t.x) + P.gT (decide (0 < t.outer)) t.r) none none
  have hsub : t.r • (P.C *ᵥ t.x) + P.gT (decide (0 < t.outer)) t.r = Ref.sub (P.ref lA uA l u) t := by
    rw [gT_ref lA uA l u]; rfl
  obtain ⟨k1, k2⟩ := (ans_kkt hE h0 h1 hq h6 h7).ref hQ hpsd
  rw [hsub] at k1 k2
  refine ⟨v, k1, ?_⟩
  obtain ⟨gk, q, hq', ⟨_, ⟨⟩⟩ | ⟨_, X, k, lt, al, hr⟩⟩ := nextStep_inv hs
  injection hr with hr
  obtain ⟨_, _, _, it, ex, st, _, _, _, w, c, kk, xx, yy, aa, bb, pp, _, _, _, _, hq2⟩ := solveQP_inv hq'
  have hsym : (P.Q + t.r • P.C)ᵀ = P.Q + t.r • P.C := by
    rw [Matrix.transpose_add, Matrix.transpose_smul, hQ, P.C_symm]
  rw [tr_symm _ hsym, gT_ref lA uA l u] at h5
  have hx' : x' = if a.perturb then Ref.shake a t.used t.x else t.x := by
    rw [h4, ha.perturb, h.used]
    unfold perturbed Ref.shake
    rw [ha.rnd]
  refine ⟨⟨y', ?_, k2⟩, h8.trans h.outer, h.out0, ?_, ?_, ?_, h.hlen, ?_⟩
  · rw [hx'] at h5
    exact h5
  · rw [hr, hq2]; exact h.inner
  · rw [hr, hq2]; exact h.total
  · rw [hr, hq2]; exact h.hist
  · simp only [nextStep, bind_eq_ok] at hs
    obtain ⟨s1, e1, q1, e2, hs⟩ := hs
    obtain ⟨e3, _⟩ := lin_x hd hx e1
    split at hs
    · cases hs
    · simp only [bind_eq_ok] at hs
      obtain ⟨s2, e4, s3, e5, hs⟩ := hs
      obtain ⟨_, _, _, it, ex, st, _, _, _, w, c, kk, xx, yy, aa, bb, pp, _, _, _, _, e6⟩ := solveQP_inv e2
      obtain ⟨lt, al, e7⟩ := getOptimalStepLength_inv e5
      injection hs with hs
      injection hs with hs
      rw [← hs, e7]
      change s2.rnd = _
      have e8 : q1.2.rnd = t.used := by rw [e6, e3]; exact h.used
      unfold perturbIf at e4
      simp only [Ref.step]
      rw [ha.perturb] at e4
      cases hp : a.perturb
      · rw [hp] at e4
        simp only [Bool.false_eq_true, if_false] at e4 ⊢
        injection e4 with e4
        rw [← e4, e8]
      · rw [hp] at e4
        simp only [if_true] at e4 ⊢
        simp only [perturbStep, hd.dims, initd_some, ok_bind, bind_eq_ok] at e4
        obtain ⟨_, _, _, _, e4⟩ := e4
        injection e4 with e4
        rw [← e4, ← e8]

/-- one pass -/
theorem Sim.pass (hn : 0 < n.nV) (h0 : DataOK d n off) (hd : DataIs d n P off) (hsend : Sends d n P lA uA l u)
    (hE : ExactOn e n (IsSub P lA uA l u)) (hQ : P.Qᵀ = P.Q) (hpsd : ∀ v, 0 ≤ v ⬝ᵥ (P.Q *ᵥ v)) (he : FinAns e)
    (ha : a.Of e d.opts) (f0 : a.factor ≠ 0) (h : Sim d n P off a s t) {q : Step (Ext K)} (hs : pass e d s = .ok q)
    (ho : ∀ z, q = .inr z → Ref.Own z.1) :
    (∃ z t', q = .inr z ∧ Ref.head (P.ref lA uA l u) a t = .inr (z.1, t') ∧ Ref.Shows z.2 t') ∨
    ∃ s' t' v, q = .inl s' ∧ Ref.head (P.ref lA uA l u) a t = .inl t' ∧
      Ref.IsMin (P.ref lA uA l u) (Ref.sub (P.ref lA uA l u) t') v ∧
      Sim d n P off a s' (Ref.step (P.ref lA uA l u) a t' v) := by
  obtain ⟨s1, s2, s3, h1, h2, h3, hc⟩ := pass_inv hs
  obtain ⟨m1, st1⟩ := h.advance (lA := lA) (uA := uA) (l := l) (u := u) hd hQ h1
  obtain ⟨m2, st2⟩ := m1.dyn (lA := lA) (uA := uA) (l := l) (u := u) hd ha f0 h2
  obtain ⟨m3, st3⟩ := m2.gk hd h3
  have st : s3.statk = _ := st3.trans (st2.trans st1)
  have hstat : ∀ {b : Bool}, stationarityCheck d s3 = .ok b → (b = true ↔ Ref.Stat (P.ref lA uA l u) a (Ref.move t)) :=
    fun hb => stationarityCheck_iff hd hn st ha.statTol hb
  obtain ⟨y, hx, _⟩ := m3.vars
  have hcomp : ∀ {b : Bool}, complementarityCheck d s3 = .ok b →
      (b = true ↔ P.phi (Ref.dyn (P.ref lA uA l u) a (Ref.move t)).x < a.complTol) := by
    intro b hb
    rw [complementarityCheck_x hd hx.xk ha.complTol hb]
    simp
  rcases hc with ⟨c1, c2, z, hz, rfl⟩ | ⟨s4, T, rho, hb, hT, hr, hc⟩
  · left
    obtain ⟨yy, al, _, e1, e2⟩ := accept_inv hz
    have sh := m3.shows
    refine ⟨z, Ref.dyn (P.ref lA uA l u) a (Ref.move t), rfl, ?_, ?_⟩
    · rw [e1]
      simp only [Ref.head]
      rw [if_pos]
      exact ⟨(hstat c1).mp rfl, (hcomp c2).mp rfl⟩
    · rw [e2]
      exact ⟨sh.x, sh.p, sh.a, sh.r, sh.outer, sh.inner, sh.total, sh.hist, sh.used⟩
  · have key : ∃ U, Sim d n P off a s4 U ∧ Ref.head (P.ref lA uA l u) a t =
        (if a.maxIter < U.total then .inr (.maxIterationsReached, U)
        else if a.maxRho < U.r then .inr (.maxPenaltyReached, U) else .inl U) := by
      rcases hb with ⟨c1, rfl⟩ | ⟨c1, c2, hb⟩
      · have hns : ¬ Ref.Stat (P.ref lA uA l u) a (Ref.move t) := fun hh => by
          have := (hstat c1).mpr hh
          simp at this
        refine ⟨_, m3, ?_⟩
        simp only [Ref.head]
        rw [if_neg (fun hh => hns hh.1), if_neg hns]
      · obtain ⟨m4, _⟩ := m3.bump hd ha f0 hb
        have hst := (hstat c1).mp rfl
        refine ⟨_, m4, ?_⟩
        simp only [Ref.head]
        rw [if_neg, if_pos hst]
        rintro ⟨_, hh⟩
        have := (hcomp c2).mpr hh
        simp at this
    obtain ⟨U, mU, hU⟩ := key
    have hTU : T = U.total := by
      rw [mU.total] at hT
      injection hT with hT
      exact hT.symm
    have hrU : rho = fin U.r := by
      rw [mU.shows.r] at hr
      injection hr with hr
      exact hr.symm
    rw [hTU, ha.maxIter] at hc
    rw [hrU, ha.maxRho, fin_lt] at hc
    rcases hc with ⟨c1, rfl⟩ | ⟨c1, c2, rfl⟩ | ⟨c1, c2, c3⟩
    · left
      refine ⟨_, U, rfl, ?_, mU.shows⟩
      rw [hU, if_pos c1]
    · left
      refine ⟨_, U, rfl, ?_, mU.shows⟩
      rw [hU, if_neg (by omega), if_pos (by simpa using c2)]
    · right
      cases q with
      | inl s' =>
        obtain ⟨v, k1, k2⟩ := mU.next h0 hd hsend hE hQ hpsd he ha c3
        refine ⟨s', U, v, rfl, ?_, k1, k2⟩
        rw [hU, if_neg (by omega), if_neg (by simpa using c2)]
      | inr z =>
        exfalso
        obtain ⟨gk, w, hw, ⟨hne, hr⟩ | ⟨_, _, _, _, _, ⟨⟩⟩⟩ := nextStep_inv c3
        injection hr with hr
        have := ho z rfl
        rw [hr] at this
        exact hne (solveQP_own hw this)

/-- the main loop -/
theorem Sim.loop (hn : 0 < n.nV) (h0 : DataOK d n off) (hd : DataIs d n P off) (hsend : Sends d n P lA uA l u)
    (hE : ExactOn e n (IsSub P lA uA l u)) (hQ : P.Qᵀ = P.Q) (hpsd : ∀ v, 0 ≤ v ⬝ᵥ (P.Q *ᵥ v)) (he : FinAns e)
    (ha : a.Of e d.opts) (f0 : a.factor ≠ 0) {k : Nat} (h : Sim d n P off a s t) {q : Option (RV × St (Ext K))}
    (hs : mainLoop e d k s = .ok q) (ho : ∀ z, q = some z → Ref.Own z.1) :
    (q = none ∧ Ref.Loop (P.ref lA uA l u) a k t none) ∨
    ∃ z t', q = some z ∧ Ref.Loop (P.ref lA uA l u) a k t (some (z.1, t')) ∧ Ref.Shows z.2 t' := by
  induction k generalizing s t with
  | zero =>
    injection hs with hs
    exact Or.inl ⟨hs.symm, .out t⟩
  | succ k ih =>
    simp only [mainLoop, bind_eq_ok] at hs
    obtain ⟨r, hr, hs⟩ := hs
    have hor : ∀ z, r = .inr z → Ref.Own z.1 := by
      intro z hz
      subst hz
      injection hs with hs
      exact ho z hs.symm
    rcases h.pass hn h0 hd hsend hE hQ hpsd he ha f0 hr hor with ⟨z, t', rfl, h1, h2⟩ | ⟨s', t', v, rfl, h1, h2, h3⟩
    · injection hs with hs
      exact Or.inr ⟨z, t', hs.symm, .stop h1, h2⟩
    · rcases ih h3 hs with ⟨h4, h5⟩ | ⟨z, t'', h4, h5, h6⟩
      · exact Or.inl ⟨h4, .next h1 h2 h5⟩
      · exact Or.inr ⟨z, t'', h4, .next h1 h2 h5, h6⟩

/-- entering the main loop -/
theorem enters_sim (hS : Setup e o n P x0 r0 f) (hB : BoundsAre o n lA uA l u) (hE : ExactOn e n (IsSub P lA uA l u))
    (hQ : P.Qᵀ = P.Q) (hpsd : ∀ v, 0 ≤ v ⬝ᵥ (P.Q *ᵥ v)) (ha : a.Of e o.d.opts) {h0 : List K} (hh : o.s.hist = emb h0)
    (hl : a.nDyn = 0 ∨ h0.length ≤ a.nDyn) {s0 : St (Ext K)} (h : Enters e o d s0) :
    ∃ off v, DataOK d n off ∧ DataIs d n P off ∧ d.opts = o.d.opts ∧ Sends d n P lA uA l u ∧
      Ref.IsMin (P.ref lA uA l u) (Ref.first (P.ref lA uA l u) a r0 x0) v ∧
      Sim d n P off a s0 (Ref.start (P.ref lA uA l u) a r0 x0 h0 o.s.rnd v) := by
  obtain ⟨off, h1, h2, h3, h4, v, y, sub, la, ua, y0, h5, h6, hs, hla, hua, h7, h8⟩ :=
    enters_x hS.ready hS.holds hS.x0 hS.rho0 hS.ans h
  have hsend := hS.sends hB ⟨s0, h, .start⟩
  have hq := hsend.is hs hla hua true (if d.opts.zeroFirst then P.g else r0 • (P.C *ᵥ x0) + P.g) o.s.xk y0
  obtain ⟨k1, k2⟩ := (ans_kkt hE h1 hs hq h7 h8).ref hQ hpsd
  have hf : (if d.opts.zeroFirst then P.g else r0 • (P.C *ᵥ x0) + P.g) = Ref.first (P.ref lA uA l u) a r0 x0 := by
    rw [h3, ha.zeroFirst]; rfl
  rw [hf] at k1 k2
  refine ⟨off, v, h1, h2, h3, hsend, k1, ?_⟩
  obtain ⟨i, hi, hi1, rfl, hfs⟩ := h
  obtain ⟨_, _, _, _, _, _, _, _, _, _, hi2⟩ := initializeSolver_ok hi hi1
  obtain ⟨gk, q, hq', ⟨_, ⟨⟩⟩ | ⟨_, A, B, C, rho, _, hr⟩⟩ := firstStep_inv hfs
  injection hr with hr
  obtain ⟨_, _, _, it, ex, st, _, _, _, w, c, kk, xx, yy, aa, bb, pp, _, _, _, _, hq2⟩ := solveQP_inv hq'
  refine ⟨⟨y, h5, k2⟩, ?_, le_refl _, ?_, ?_, ?_, hl, ?_⟩ <;> rw [hr, hq2, hi2]
  · rfl
  · rfl
  · rfl
  · exact hh
  · rfl

end

end LCQ
