import Verif.Lemmas.Enough
import Verif.Lemmas.Live

/-!
# The number of iterations: passes of the main loop are moves
-/

set_option linter.unusedSectionVars false

namespace LCQ
open Scalar Ext
open scoped Matrix

variable {K : Type} [Field K] [LinearOrder K] [IsStrictOrderedRing K] {n : Dims} {P : Prob K n} {e : Env (Ext K)}
  {o : Obj (Ext K)} {x0 : Fin n.nV → K} {r0 f : K} {d : Data (Ext K)} {lA uA : Fin n.nA → Ext K} {l u : Fin n.nV → Ext K}

theorem penalty_fin {o : Options (Ext K)} {a f : K} (ha : o.rho0 = fin a) (hf : o.factor = fin f) (k : Nat) :
    penalty o k = fin (a * f ^ k) := by
  induction k with
  | zero => simp [penalty, ha]
  | succ k ih =>
    rw [penalty, ih, hf, fin_mul]
    congr 1
    ring

theorem stationarityCheck_false {off : Nat} {s : St (Ext K)} (hd : DataIs d n P off) {v : Fin n.nV → K}
    (hv : s.statk = some (ev v)) {ts : K} (ht : d.opts.statTol = fin ts) (h : stationarityCheck d s = .ok false) :
    ∃ i, ts ≤ |v i| := by
  obtain ⟨m, h1, h2, h3⟩ := C06_finite (List.ofFn v)
  rw [List.length_ofFn] at h1
  simp only [stationarityCheck, hd.dims, hv, ht, initd_some, deref_some, ok_bind, ev, h1] at h
  injection h with h
  have hm : ts ≤ m := by simpa using h
  rcases h3 with ⟨h3, _⟩ | ⟨w, hw, hw'⟩
  · have := congrArg List.length h3
    simp at this
    exact absurd this hd.nV
  · obtain ⟨i, rfl⟩ := List.mem_ofFn.mp hw
    exact ⟨i, by rw [hw']; exact hm⟩

/-- a pass without a penalty update failed the stationarity test -/
theorem pass_residual {off : Nat} {s s' : St (Ext K)} {r a : K} {b : Bool} {x p : Fin n.nV → K} {y : Fin (off + n.nA) → K}
    (hd : DataIs d n P off) (hs : XSt d n P off s r b x p a y) {ts : K} (ht : d.opts.statTol = fin ts) {t k : Nat}
    (hl : Live d.opts s t k) (hp : pass e d s = .ok (.inl s')) :
    (∃ i, ts ≤ |P.stat d.sparse r b (x + a • p) y i|) ∨ ∃ k', k < k' ∧ Live d.opts s' (t + 1) k' := by
  obtain ⟨s1, s2, s3, h1, h2, h3, ⟨_, _, _, _, ⟨⟩⟩ | ⟨s4, t', rho, h4, _, _, h5⟩⟩ := pass_inv hp
  obtain ⟨g1, g2, _, _⟩ := advance_x hd hs h1
  have l1 := (hl.advance h1).1
  have l2 := (l1.dynamic h2).1
  have e2 : s2.statk = s1.statk := by
    obtain ⟨q, hh, _, hq, ⟨_, h'⟩ | ⟨_, h'⟩⟩ := dynamicPenalty_inv h2
    · rw [h', hq]
    · obtain ⟨_, _, _, _, _, _, _, _, h'⟩ := bump_inv h'
      rw [h', hq]
  obtain ⟨gk, e3⟩ := updateLinearization_inv h3
  rcases h4 with ⟨hst, rfl⟩ | ⟨_, _, hb⟩
  · left
    refine stationarityCheck_false hd ?_ ht hst
    rw [e3]
    exact e2.trans g2
  · right
    have l4 : ∃ k', k < k' ∧ Live d.opts s4 (t + 1) k' := by
      rcases l2 with l2 | l2
      · exact ⟨k + 1, by omega, ((l2.lin h3).1.bump hb).1⟩
      · exact ⟨k + 1 + 1, by omega, ((l2.lin h3).1.bump hb).1⟩
    obtain ⟨k', hk, l4⟩ := l4
    refine ⟨k', hk, ?_⟩
    rcases h5 with ⟨_, ⟨⟩⟩ | ⟨_, _, ⟨⟩⟩ | ⟨_, _, h5⟩
    rcases l4.next h5 with ⟨_, h6, l5, _⟩ | ⟨_, ⟨⟩, _⟩
    injection h6 with h6
    subst h6
    exact l5

/-- the answer handed out by the wrapper is the point and the multipliers of the specification -/
theorem ans_eq {off : Nat} (h0 : DataOK d n off) (hd : DataIs d n P off) {sub : Sub (Ext K)} (hs : d.sub = some sub)
    {q : Resp (Ext K)} {v x : Fin n.nV → K} {y : Fin (off + n.nA) → K} {z : Fin n.nA → K} {w : Fin n.nV → K}
    (h1 : AnsIs sub q v y) (h2 : q.Is sub n x z w) : v = x ∧ yLin y = z ∧ yBox y = w := by
  obtain ⟨a1, a2⟩ := h1
  obtain ⟨b1, b2⟩ := h2
  have hv : v = x := by
    ext i
    have := (a1 i).symm.trans (b1 i)
    injection this
  refine ⟨hv, ?_⟩
  have hq : (∀ i : Fin (off + n.nA), q.y i = fin (y i)) → ((∀ i, q.y i.1 = fin (w i)) ∧ ∀ i, q.y (n.nV + i.1) = fin (z i)) →
      off = n.nV → yLin y = z ∧ yBox y = w := by
    intro a2 b2 ho
    subst ho
    constructor
    · ext i
      have := (a2 ⟨n.nV + i, by omega⟩).symm.trans (b2.2 i)
      injection this
    · ext i
      rw [yBox, dif_pos rfl]
      have := (a2 ⟨i, by omega⟩).symm.trans (b2.1 i)
      injection this
  rcases h0.sub with ⟨Q, A, hsub, ho⟩ | ⟨Q, A, hsub, ho⟩ | ⟨Q, A, hsub, hQn, hAm, ho, hlb, hub⟩
  · rw [hs] at hsub; injection hsub with hsub; subst hsub
    exact hq a2 b2 ho
  · rw [hs] at hsub; injection hsub with hsub; subst hsub
    exact hq a2 b2 ho
  · rw [hs] at hsub; injection hsub with hsub; subst hsub
    subst ho
    obtain ⟨b2, rfl⟩ := b2
    constructor
    · ext i
      have h3 := a2 ⟨0 + i, by omega⟩
      have h4 := b2 i
      simp only [Nat.zero_add] at h3
      rw [h4, fin_neg, neg_neg] at h3
      injection h3 with h3
      rw [h3]
      simp only [yLin, Nat.zero_add]
    · ext i
      rw [yBox, dif_neg (fun h => hd.nV h.symm)]
      rfl

/-- the state describes a step from `x` with `k` penalty updates made so far -/
def AtStep (d : Data (Ext K)) (P : Prob K n) (lA uA : Fin n.nA → Ext K) (l u : Fin n.nV → Ext K) (r0 f : K) (s : St (Ext K))
    (k : Nat) (x : Fin n.nV → K) : Prop :=
  ∃ off p a, ∃ y : Fin (off + n.nA) → K, DataOK d n off ∧ DataIs d n P off ∧ XSt d n P off s (r0 * f ^ k) (decide (0 < k)) x p a y ∧
    IsStep P lA uA l u (decide (0 < k)) (r0 * f ^ k) x p a (yLin y) (yBox y)

/-- every pass computes a step from the point reached -/
theorem pass_rep (hS : Setup e o n P x0 r0 f) (hB : BoundsAre o n lA uA l u) (hE : ExactOn e n (IsSub P lA uA l u))
    (hper : o.d.opts.perturb = false) (hQ : P.Qᵀ = P.Q) {s s' : St (Ext K)} (h : AtHead e o d s) {off : Nat} {r a : K} {b : Bool}
    {x p : Fin n.nV → K} {y : Fin (off + n.nA) → K} (h0 : DataOK d n off) (hd : DataIs d n P off)
    (hx : XSt d n P off s r b x p a y) (hb : OutB s b) (hfe : Feasible P lA uA l u (x + a • p))
    (hp : pass e d s = .ok (.inl s')) {t k : Nat} (hl : Live o.d.opts s' t k) : AtStep d P lA uA l u r0 f s' k (x + a • p) := by
  have ho : d.opts = o.d.opts := by
    obtain ⟨_, _, _, ho, _⟩ := hS.head h
    exact ho
  obtain ⟨r', b', c, j, x', v, y', sub, la, ua, _, hb', hs, hla, hua, hxe, hx', hq, hv, rfl, _⟩ :=
    pass_x h0 hd hS.ans (by rw [ho]; exact hS.factor) hS.f0 hx hb hp
  rw [ho, hper] at hxe
  have hxe : x' = x + a • p := by simpa using hxe
  subst hxe
  have hr : r' = r0 * f ^ k := by
    have h1 := hl.rho
    rw [penalty_fin hS.rho0 hS.factor, hx'.rho] at h1
    injection h1 with h1
    injection h1
  have hbk : b' = decide (0 < k) := by
    obtain ⟨j, hj, _, hjb⟩ := hb'
    have := hl.outer
    rw [hj] at this
    injection this with this
    subst this
    rw [Bool.eq_iff_iff, hjb]
    simp
  have hq2 := (hS.sends hB h).is hs hla hua false (r' • (P.C *ᵥ (x + a • p)) + P.gT b' r') none none
  obtain ⟨v', z, w, h1, h2⟩ := hE _ _ _ hq2 ⟨_, rfl⟩ hq
  obtain ⟨e1, e2, e3⟩ := ans_eq h0 hd hs hv h1
  subst e1 e2 e3
  rw [lin_eq] at h2
  have hsy : tr d.sparse (P.Q + r' • P.C) = P.Q + r' • P.C := by
    apply tr_symm
    rw [Matrix.transpose_add, Matrix.transpose_smul, hQ, P.C_symm]
  rw [hsy] at hx'
  subst hr hbk
  exact ⟨off, v - (x + a • p), _, y', h0, hd, hx', hfe, by rw [add_sub_cancel]; exact h2, rfl⟩

/-- a pass is a move -/
theorem pass_move (hS : Setup e o n P x0 r0 f) (hB : BoundsAre o n lA uA l u) (hE : ExactOn e n (IsSub P lA uA l u))
    (hper : o.d.opts.perturb = false) (hQ : P.Qᵀ = P.Q) {ts : K} (hts : o.d.opts.statTol = fin ts) {kmax : Nat}
    (hmax : ∀ k, (o.d.opts.maxRho <. penalty o.d.opts k) = false → k ≤ kmax) {s s' : St (Ext K)} (h : AtHead e o d s) {t k : Nat}
    (hl : Live o.d.opts s t k) (hk : (t = 0 ∧ k = 0) ∨ (o.d.opts.maxRho <. penalty o.d.opts k) = false)
    {x : Fin n.nV → K} (hr : AtStep d P lA uA l u r0 f s k x) (hp : pass e d s = .ok (.inl s')) :
    ∃ k' x', AtStep d P lA uA l u r0 f s' k' x' ∧ Live o.d.opts s' (t + 1) k' ∧
      (o.d.opts.maxRho <. penalty o.d.opts k') = false ∧ Move P lA uA l u r0 f ts kmax (k, x) (k', x') := by
  have ho : d.opts = o.d.opts := by
    obtain ⟨_, _, _, ho, _⟩ := hS.head h
    exact ho
  obtain ⟨off, p, a, y, h0, hd, hx, hst⟩ := hr
  rw [← ho] at hl hk
  rcases hl.pass hk hp with ⟨s'', k', h1, l', hkk, _, _, _, hr'⟩ | ⟨_, _, ⟨⟩, _⟩
  injection h1 with h1
  subst h1
  have hb : OutB s (decide (0 < k)) := ⟨k, hl.outer, by omega, by simp⟩
  refine ⟨k', x + a • p, pass_rep hS hB hE hper hQ h h0 hd hx hb hst.feas' hp (ho ▸ l'), ho ▸ l', ho ▸ hr', ?_⟩
  refine ⟨p, a, yLin y, yBox y, hst, rfl, ?_⟩
  by_cases hlt : k < k'
  · exact Or.inr ⟨hlt, hmax k' (ho ▸ hr')⟩
  · left
    refine ⟨by dsimp only; omega, ?_⟩
    rcases pass_residual hd hx (by rw [ho]; exact hts) hl hp with ⟨i, hi⟩ | ⟨k2, h2, l2⟩
    · refine ⟨i, ?_⟩
      have hsy : tr d.sparse (P.Q + (r0 * f ^ k) • P.C) = P.Q + (r0 * f ^ k) • P.C := by
        apply tr_symm
        rw [Matrix.transpose_add, Matrix.transpose_smul, hQ, P.C_symm]
      rw [Prob.stat, hsy] at hi
      exact hi
    · have := l'.outer.symm.trans l2.outer
      injection this with this
      omega

/-- the heads of the main loop: the first one, or one reached by moves from the first answer -/
theorem head_moves (hS : Setup e o n P x0 r0 f) (hB : BoundsAre o n lA uA l u) (hE : ExactOn e n (IsSub P lA uA l u))
    (hper : o.d.opts.perturb = false) (hQ : P.Qᵀ = P.Q) {ts : K} (hts : o.d.opts.statTol = fin ts) {kmax : Nat}
    (hmax : ∀ k, (o.d.opts.maxRho <. penalty o.d.opts k) = false → k ≤ kmax) {s : St (Ext K)} (h : AtHead e o d s) :
    ∃ t k, Live o.d.opts s t k ∧ ((t = 0 ∧ k = 0) ∨ (o.d.opts.maxRho <. penalty o.d.opts k) = false) ∧
      (t = 0 ∨ ∃ v z w x k0, 0 < t ∧ k0 ≤ kmax ∧ AtStep d P lA uA l u r0 f s k x ∧
      (P.subQp lA uA l u (if o.d.opts.zeroFirst then P.g else P.g + r0 • (P.C *ᵥ x0))).Kkt v z w ∧
      Steps (Move P lA uA l u r0 f ts kmax) (t - 1) (k0, v) (k, x)) := by
  obtain ⟨s0, h0, hr⟩ := h
  have l0 : Live o.d.opts s0 0 0 := by
    obtain ⟨i, hi, hi1, rfl, hf⟩ := h0
    rcases Live.first hi hi1 hf with ⟨s', h1, l, _⟩ | ⟨_, ⟨⟩, _⟩
    injection h1 with h1
    subst h1
    exact l
  suffices h : ∃ t k, Live o.d.opts s t k ∧ ((t = 0 ∧ k = 0 ∧ s = s0) ∨ (o.d.opts.maxRho <. penalty o.d.opts k) = false ∧
      ∃ v z w x k0, 0 < t ∧ k0 ≤ kmax ∧ AtStep d P lA uA l u r0 f s k x ∧
        (P.subQp lA uA l u (if o.d.opts.zeroFirst then P.g else P.g + r0 • (P.C *ᵥ x0))).Kkt v z w ∧
        Steps (Move P lA uA l u r0 f ts kmax) (t - 1) (k0, v) (k, x)) by
    obtain ⟨t, k, l, ⟨h, hk, _⟩ | ⟨hk, h⟩⟩ := h
    · exact ⟨t, k, l, Or.inl ⟨h, hk⟩, Or.inl h⟩
    · exact ⟨t, k, l, Or.inr hk, Or.inr h⟩
  induction hr with
  | start => exact ⟨0, 0, l0, Or.inl ⟨rfl, rfl, rfl⟩⟩
  | @pass s s' hr hp ih =>
    obtain ⟨t, k, l, ih⟩ := ih
    have ho : d.opts = o.d.opts := by
      obtain ⟨_, _, _, ho, _⟩ := hS.head ⟨s0, h0, hr⟩
      exact ho
    rcases ih with ⟨rfl, rfl, rfl⟩ | ⟨hk, v, z, w, x, k0, ht, hk0, hrep, hkkt, hsteps⟩
    · obtain ⟨off, h1, hd, _, _, v, y, sub, la, ua, y0, hx, hb, hs, ha, hb', hq, hv⟩ :=
        enters_x hS.ready hS.holds hS.x0 hS.rho0 hS.ans h0
      have hq2 := (hS.sends hB ⟨s, h0, .start⟩).is hs ha hb' true
        (if d.opts.zeroFirst then P.g else r0 • (P.C *ᵥ x0) + P.g) o.s.xk y0
      obtain ⟨v', z, w, g1, g2⟩ := hE _ _ _ hq2 ⟨_, rfl⟩ hq
      obtain ⟨e1, _, _⟩ := ans_eq h1 hd hs hv g1
      subst e1
      rw [← ho] at l
      rcases l.pass (Or.inl ⟨rfl, rfl⟩) hp with ⟨s'', k', h2, l', _, _, _, _, hr'⟩ | ⟨_, _, ⟨⟩, _⟩
      injection h2 with h2
      subst h2
      rw [ho] at l' hr'
      have hxv : x0 + (1 : K) • (v - x0) = v := by rw [one_smul, add_sub_cancel]
      refine ⟨1, k', l', Or.inr ⟨hr', v, z, w, v, k', one_pos, hmax k' hr', ?_, ?_, .refl _⟩⟩
      · have := pass_rep hS hB hE hper hQ ⟨s, h0, .start⟩ h1 hd hx hb (by rw [hxv]; exact feas_any g2.feas) hp l'
        rwa [hxv] at this
      · rw [ho, add_comm] at g2
        exact g2
    · obtain ⟨k', x', r', l', hr', hm⟩ := pass_move hS hB hE hper hQ hts hmax ⟨s0, h0, hr⟩ l (Or.inr hk) hrep hp
      refine ⟨t + 1, k', l', Or.inr ⟨hr', v, z, w, x', k0, by omega, hk0, r', hkkt, ?_⟩⟩
      have := hsteps.snoc hm
      rwa [show t - 1 + 1 = t + 1 - 1 by omega] at this

end LCQ
