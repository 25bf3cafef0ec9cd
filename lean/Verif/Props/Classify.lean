import Verif.Props.CertifyEx

/-!
# C32: the reported type of stationarity
-/

set_option linter.unusedSectionVars false

namespace LCQ
open Scalar Ext
open scoped Matrix

/-! ## any arithmetic -/

section
variable {α : Type} [Scalar α]

/-- one of the two numbers counts as not positive although their product is not small -/
def mixed (tol a b : α) : Bool := (tol <=. Scalar.abs (a *. b)) && (stdMin a b <=. zero)

/-- the type of stationarity for a list of pairs of multipliers -/
def typeOf (tol : α) (l : List (α × α)) : AlgStat :=
  if l.any (fun q => mixed tol q.1 q.2 && (q.1 *. q.2 <=. tol)) then .wStat
  else if l.all (fun q => !(stdMin q.1 q.2 <. zero)) then .sStat
  else if l.all (fun q => !mixed tol q.1 q.2) then .mStat
  else .cStat

theorem rd_inv {b : List α} {i : Nat} {v : α} (h : rd b i = .ok v) : gt b i = v := by
  rw [rd_ok (rd_eq_ok h).1] at h
  injection h

theorem typeOf_map (tol : α) (l : List Nat) (f : Nat → α × α) : typeOf tol (l.map f) =
    if l.any (fun i => mixed tol (f i).1 (f i).2 && ((f i).1 *. (f i).2 <=. tol)) then .wStat
    else if l.all (fun i => !(stdMin (f i).1 (f i).2 <. zero)) then .sStat
    else if l.all (fun i => !mixed tol (f i).1 (f i).2) then .mStat
    else .cStat := by
  simp only [typeOf, List.any_map, List.all_map, Function.comp_def]

theorem classify_eq {tol : α} {ya : List α} {nC nComp : Nat} {l : List Nat} {sS mS : Bool} {t : AlgStat}
    (h : classify tol ya nC nComp l sS mS = .ok t) {f : Nat → α × α}
    (hf : ∀ i, f i = (gt ya (nC + i), gt ya (nC + nComp + i))) : t =
      if l.any (fun i => mixed tol (f i).1 (f i).2 && ((f i).1 *. (f i).2 <=. tol)) then .wStat
      else if sS && l.all (fun i => !(stdMin (f i).1 (f i).2 <. zero)) then .sStat
      else if mS && l.all (fun i => !mixed tol (f i).1 (f i).2) then .mStat
      else .cStat := by
  induction l generalizing sS mS with
  | nil =>
    simp only [classify] at h
    injection h with h
    simp [← h]
  | cons i is ih =>
    simp only [classify, bind_eq_ok] at h
    obtain ⟨a, ha, b, hb, h⟩ := h
    have hi := hf i
    rw [rd_inv ha, rd_inv hb] at hi
    simp only [List.any_cons, List.all_cons, hi]
    have hm : ((tol <=. Scalar.abs (a *. b)) && (stdMin a b <=. zero)) = mixed tol a b := rfl
    rw [hm] at h
    cases h1 : mixed tol a b
    · rw [h1, if_neg (by simp)] at h
      rw [ih h]
      cases h2 : (stdMin a b <. zero) <;> simp
    · rw [h1, if_pos rfl] at h
      cases h3 : (a *. b <=. tol)
      · rw [h3, if_neg (by simp)] at h
        rw [ih h]
        cases h2 : (stdMin a b <. zero) <;> simp
      · rw [h3, if_pos rfl] at h
        injection h with h
        simp [← h]

/-- the entries of two arrays at the indices where both are at most `tol` -/
theorem weak_eq {e : Env α} {d : Data α} {s : St α} {w : List Nat} (h : weakComplementarities e d s = .ok w) :
    ∃ (n : Dims) (x u v : List α), d.dims = some n ∧ s.xk = some x ∧
      mulDS d.sparse d.L d.Ls x (e.alloc 15 n.nComp) n.nComp n.nV = .ok u ∧
      mulDS d.sparse d.R d.Rs x (e.alloc 16 n.nComp) n.nComp n.nV = .ok v ∧
      w = (List.range n.nComp).filter fun i => (gt u i <=. d.opts.complTol) && (gt v i <=. d.opts.complTol) := by
  simp only [weakComplementarities, bind_eq_ok, initd_eq_ok, deref_eq_ok] at h
  obtain ⟨n, hn, x, hx, u, hu, v, hv, h⟩ := h
  refine ⟨n, x, u, v, hn, hx, hu, hv, ?_⟩
  refine loop_partial (fun k w => w = (List.range k).filter fun i =>
    (gt u i <=. d.opts.complTol) && (gt v i <=. d.opts.complTol)) n.nComp _ [] w h rfl ?_
  intro i hi t t' ht h
  subst ht
  simp only [bind_eq_ok] at h
  obtain ⟨a, ha, h⟩ := h
  rw [List.range_succ, List.filter_append]
  have ha' := rd_inv ha
  split at h
  · rename_i h1
    simp only [bind_eq_ok] at h
    obtain ⟨b, hb, h⟩ := h
    have hb' := rd_inv hb
    split at h
    · rename_i h2
      injection h with h
      rw [← h]
      congr 1
      simp [ha', hb', h1, h2]
    · rename_i h2
      injection h with h
      rw [← h]
      simp [hb', h2]
  · rename_i h1
    injection h with h
    rw [← h]
    simp [ha', h1]

/-- what is reported on success -/
theorem accept_type {e : Env α} {d : Data α} {s : St α} {r : RV × St α} (h : accept e d s = .ok r) :
    ∃ n w ya t, d.dims = some n ∧ weakComplementarities e d r.2 = .ok w ∧ r.2.ykA = some ya ∧
      classify d.opts.complTol ya n.nC n.nComp w true true = .ok t ∧ r.2.algo = some t ∧ r.2.stats.status = t := by
  simp only [accept, bind_eq_ok, initd_eq_ok] at h
  obtain ⟨s1, h1, s2, h2, t, ht, h⟩ := h
  simp only [determineStationarityType, bind_eq_ok, initd_eq_ok, deref_eq_ok] at h2
  obtain ⟨n, hn, w, hw, ya, hya, t', ht', h2⟩ := h2
  injection h2 with h2
  subst h2
  have : t' = t := by injection ht
  subst this
  injection h with h
  refine ⟨n, w, ya, t', hn, ?_, ?_, ht', ?_, ?_⟩
  · rw [← hw, ← h]
    split <;> rfl
  · rw [← hya, ← h]
    split <;> rfl
  · rw [← h]
    split <;> rfl
  · rw [← h]
    split <;> rfl

/-- C32 (any arithmetic): after success the reported type is determined by the pairs of penalised multipliers in `yk_A`
at those indices where both sides of the complementarity constraint, evaluated at the returned point without subtracting
the lower bounds, are at most the complementarity tolerance. -/
theorem C32_any {e : Env α} {fuel : Nat} {o o' : Obj α}
    (h : runSolver e fuel o = .ok (some (.successfulReturn, o'))) :
    ∃ (n : Dims) (x ya u v : List α), o'.d.dims = some n ∧ o'.s.xk = some x ∧ o'.s.ykA = some ya ∧
      mulDS o'.d.sparse o'.d.L o'.d.Ls x (e.alloc 15 n.nComp) n.nComp n.nV = .ok u ∧
      mulDS o'.d.sparse o'.d.R o'.d.Rs x (e.alloc 16 n.nComp) n.nComp n.nV = .ok v ∧
      o'.s.algo = some o'.s.stats.status ∧
      o'.s.stats.status = typeOf o'.d.opts.complTol
        (((List.range n.nComp).filter fun i => (gt u i <=. o'.d.opts.complTol) && (gt v i <=. o'.d.opts.complTol)).map
          fun i => (gt ya (n.nC + i), gt ya (n.nC + n.nComp + i))) := by
  obtain ⟨s, _, hp⟩ := run_last h
  obtain ⟨_, _, s3, _, _, _, ⟨_, _, q', hq, hqq⟩ | ⟨s4, t, rho, _, _, _, h5⟩⟩ := pass_inv hp
  · injection hqq with hqq
    obtain ⟨n, w, ya, t, hn, hw, hya, ht, h1, h2⟩ := accept_type hq
    rw [← hqq] at hw hya h1 h2
    obtain ⟨n', x, u, v, hn', hx, hu, hv, hw'⟩ := weak_eq hw
    rw [hn] at hn'
    injection hn' with hn'
    subst hn'
    refine ⟨n, x, ya, u, v, hn, hx, hya, hu, hv, by rw [h1, h2], ?_⟩
    rw [h2, classify_eq ht (f := fun i => (gt ya (n.nC + i), gt ya (n.nC + n.nComp + i))) (fun _ => rfl), typeOf_map, hw']
    simp only [Bool.true_and]
  · exfalso
    rcases h5 with ⟨_, h5⟩ | ⟨_, _, h5⟩ | ⟨_, _, h5⟩
    · injection h5 with h5; injection h5 with h5; cases h5
    · injection h5 with h5; injection h5 with h5; cases h5
    · obtain ⟨gk, q', _, ⟨hne, h6⟩ | ⟨_, _, _, _, _, ⟨⟩⟩⟩ := nextStep_inv h5
      injection h6 with h6
      injection h6 with h6 _
      exact hne h6.symm

end

/-! ## exact arithmetic -/

section
variable {K : Type} [Field K] [LinearOrder K] [IsStrictOrderedRing K] {n : Dims} {P : Prob K n} {e : Env (Ext K)}
  {o : Obj (Ext K)} {x0 : Fin n.nV → K} {r0 f : K} {d : Data (Ext K)} {lA uA : Fin n.nA → Ext K} {l u : Fin n.nV → Ext K}

/-- The types of stationarity as they are told apart by the code, for pairs of multipliers `a`, `b` at the indices in
`W`: S-stationary if no multiplier is negative; otherwise M-stationary if at each index both are positive or the
product is small; otherwise C-stationary if at each other index the product exceeds the tolerance; otherwise only
weakly stationary. -/
def TypeIs {m : Nat} (W : Fin m → Prop) (a b : Fin m → K) (tol : K) : AlgStat → Prop
  | .sStat => ∀ i, W i → 0 ≤ a i ∧ 0 ≤ b i
  | .mStat => (∃ i, W i ∧ (a i < 0 ∨ b i < 0)) ∧ ∀ i, W i → (0 < a i ∧ 0 < b i) ∨ |a i * b i| < tol
  | .cStat => (∃ i, W i ∧ (a i < 0 ∨ b i < 0)) ∧ (∃ i, W i ∧ (a i ≤ 0 ∨ b i ≤ 0) ∧ tol ≤ |a i * b i|) ∧
      ∀ i, W i → (0 < a i ∧ 0 < b i) ∨ |a i * b i| < tol ∨ tol < a i * b i
  | .wStat => ∃ i, W i ∧ (a i ≤ 0 ∨ b i ≤ 0) ∧ tol ≤ |a i * b i| ∧ a i * b i ≤ tol
  | .notSolved => False

/-- the types exclude each other -/
theorem TypeIs.unique {m : Nat} {W : Fin m → Prop} {a b : Fin m → K} {tol : K} (h0 : 0 < tol) {s t : AlgStat}
    (hs : TypeIs W a b tol s) (ht : TypeIs W a b tol t) : s = t := by
  have sw : TypeIs W a b tol .sStat → TypeIs W a b tol .wStat → False := by
    rintro h ⟨i, hi, h1, h2, h3⟩
    obtain ⟨ha, hb⟩ := h i hi
    have : a i * b i = 0 := by
      rcases h1 with h1 | h1
      · rw [le_antisymm h1 ha, zero_mul]
      · rw [le_antisymm h1 hb, mul_zero]
    rw [this, abs_zero] at h2
    exact absurd h0 (not_lt.mpr h2)
  have sm : TypeIs W a b tol .sStat → TypeIs W a b tol .mStat → False := by
    rintro h ⟨⟨i, hi, h1⟩, _⟩
    obtain ⟨ha, hb⟩ := h i hi
    rcases h1 with h1 | h1
    · exact absurd h1 (not_lt.mpr ha)
    · exact absurd h1 (not_lt.mpr hb)
  have sc : TypeIs W a b tol .sStat → TypeIs W a b tol .cStat → False := by
    rintro h ⟨⟨i, hi, h1⟩, _⟩
    obtain ⟨ha, hb⟩ := h i hi
    rcases h1 with h1 | h1
    · exact absurd h1 (not_lt.mpr ha)
    · exact absurd h1 (not_lt.mpr hb)
  have mb : ∀ i, ((0 < a i ∧ 0 < b i) ∨ |a i * b i| < tol) → (a i ≤ 0 ∨ b i ≤ 0) → tol ≤ |a i * b i| → False := by
    rintro i (⟨h1, h2⟩ | h1) h3 h4
    · rcases h3 with h3 | h3
      · exact absurd h1 (not_lt.mpr h3)
      · exact absurd h2 (not_lt.mpr h3)
    · exact absurd h1 (not_lt.mpr h4)
  have mc : TypeIs W a b tol .mStat → TypeIs W a b tol .cStat → False := by
    rintro ⟨_, h⟩ ⟨_, ⟨i, hi, h1, h2⟩, _⟩
    exact mb i (h i hi) h1 h2
  have mw : TypeIs W a b tol .mStat → TypeIs W a b tol .wStat → False := by
    rintro ⟨_, h⟩ ⟨i, hi, h1, h2, _⟩
    exact mb i (h i hi) h1 h2
  have cw : TypeIs W a b tol .cStat → TypeIs W a b tol .wStat → False := by
    rintro ⟨_, _, h⟩ ⟨i, hi, h1, h2, h3⟩
    rcases h i hi with h | h | h
    · exact mb i (Or.inl h) h1 h2
    · exact mb i (Or.inr h) h1 h2
    · exact absurd h (not_lt.mpr h3)
  cases s <;> cases t <;> first
    | rfl
    | exact absurd hs id
    | exact absurd ht id
    | exact (sw hs ht).elim
    | exact (sw ht hs).elim
    | exact (sm hs ht).elim
    | exact (sm ht hs).elim
    | exact (sc hs ht).elim
    | exact (sc ht hs).elim
    | exact (mc hs ht).elim
    | exact (mc ht hs).elim
    | exact (mw hs ht).elim
    | exact (mw ht hs).elim
    | exact (cw hs ht).elim
    | exact (cw ht hs).elim

theorem stdMin_fin (a b : K) : (stdMin (fin a) (fin b) : Ext K) = fin (min a b) := by
  simp only [stdMin, fin_lt, decide_eq_true_eq]
  split
  · rename_i h; rw [min_eq_right h.le]
  · rename_i h; rw [min_eq_left (not_lt.mp h)]

theorem abs_fin (a : K) : (Scalar.abs (fin a) : Ext K) = fin |a| := by
  change fin (if 0 ≤ a then a else -a) = fin |a|
  split
  · rename_i h; rw [abs_of_nonneg h]
  · rename_i h; rw [abs_of_neg (not_le.mp h)]

theorem mixed_fin (t a b : K) : mixed (fin t) (fin a) (fin b) = true ↔ t ≤ |a * b| ∧ (a ≤ 0 ∨ b ≤ 0) := by
  simp only [mixed, fin_mul, abs_fin, fin_le, stdMin_fin, zero_fin, Bool.and_eq_true, decide_eq_true_eq, min_le_iff]

/-- the type computed from finite multipliers -/
theorem typeOf_is {m : Nat} (W : Fin m → Prop) [DecidablePred W] (a b : Fin m → K) {tol : K}
    (ls : List (Ext K × Ext K)) (h : ∀ q, q ∈ ls ↔ ∃ i, W i ∧ q = (fin (a i), fin (b i))) :
    TypeIs W a b tol (typeOf (fin tol) ls) := by
  have hneg : (ls.all (fun q => !(stdMin q.1 q.2 <. zero)) = true) ↔ ∀ i, W i → 0 ≤ a i ∧ 0 ≤ b i := by
    rw [List.all_eq_true]
    constructor
    · intro hq i hi
      have := hq _ ((h _).mpr ⟨i, hi, rfl⟩)
      simp only [stdMin_fin, zero_fin, fin_lt, Bool.not_eq_true', decide_eq_false_iff_not, not_lt, le_min_iff] at this
      exact this
    · intro hq q hm
      obtain ⟨i, hi, rfl⟩ := (h q).mp hm
      simpa only [stdMin_fin, zero_fin, fin_lt, Bool.not_eq_true', decide_eq_false_iff_not, not_lt, le_min_iff] using hq i hi
  have hmix : (ls.all (fun q => !mixed (fin tol) q.1 q.2) = true) ↔
      ∀ i, W i → (0 < a i ∧ 0 < b i) ∨ |a i * b i| < tol := by
    rw [List.all_eq_true]
    have hk : ∀ i, mixed (fin tol) (fin (a i)) (fin (b i)) = false ↔ ((0 < a i ∧ 0 < b i) ∨ |a i * b i| < tol) := by
      intro i
      rw [← Bool.not_eq_true, mixed_fin, not_and_or, not_or, not_le, not_le, not_le]
      exact or_comm
    constructor
    · intro hq i hi
      have := hq _ ((h _).mpr ⟨i, hi, rfl⟩)
      simp only [Bool.not_eq_true'] at this
      exact (hk i).mp this
    · intro hq q hm
      obtain ⟨i, hi, rfl⟩ := (h q).mp hm
      simpa only [Bool.not_eq_true'] using (hk i).mpr (hq i hi)
  have hw : (ls.any (fun q => mixed (fin tol) q.1 q.2 && (q.1 *. q.2 <=. fin tol)) = true) ↔
      ∃ i, W i ∧ (a i ≤ 0 ∨ b i ≤ 0) ∧ tol ≤ |a i * b i| ∧ a i * b i ≤ tol := by
    rw [List.any_eq_true]
    constructor
    · rintro ⟨q, hm, hq⟩
      obtain ⟨i, hi, rfl⟩ := (h q).mp hm
      rw [Bool.and_eq_true, mixed_fin, fin_mul, fin_le, decide_eq_true_eq] at hq
      exact ⟨i, hi, hq.1.2, hq.1.1, hq.2⟩
    · rintro ⟨i, hi, h1, h2, h3⟩
      refine ⟨_, (h _).mpr ⟨i, hi, rfl⟩, ?_⟩
      rw [Bool.and_eq_true, mixed_fin, fin_mul, fin_le, decide_eq_true_eq]
      exact ⟨⟨h2, h1⟩, h3⟩
  unfold typeOf
  split
  · rename_i h1
    exact hw.mp h1
  · rename_i h1
    split
    · rename_i h2
      exact hneg.mp h2
    · rename_i h2
      rw [hneg] at h2
      have hn : ∃ i, W i ∧ (a i < 0 ∨ b i < 0) := by
        by_contra hc
        refine h2 fun i hi => ?_
        by_contra hd
        refine hc ⟨i, hi, ?_⟩
        rcases not_and_or.mp hd with hd | hd
        · exact Or.inl (not_le.mp hd)
        · exact Or.inr (not_le.mp hd)
      split
      · rename_i h3
        exact ⟨hn, hmix.mp h3⟩
      · rename_i h3
        rw [hmix] at h3
        rw [hw] at h1
        refine ⟨hn, ?_, fun i hi => ?_⟩
        · by_contra hc
          refine h3 fun i hi => ?_
          by_contra hd
          rw [not_or, not_and_or, not_lt, not_lt, not_lt] at hd
          exact hc ⟨i, hi, hd.1, hd.2⟩
        · by_contra hd
          rw [not_or, not_or, not_and_or, not_lt, not_lt, not_lt, not_lt] at hd
          exact h1 ⟨i, hi, hd.1, hd.2.1, hd.2.2⟩

/-- C32: after success the reported type is the one determined by the penalised multipliers (those of the last
subproblem, before their transformation) at the indices where both sides of the complementarity constraint, without
their lower bounds, are at most the complementarity tolerance. -/
theorem C32_type (hS : Setup e o n P x0 r0 f) {tc : K} (htc : o.d.opts.complTol = fin tc) {ts : K} (hts : o.d.opts.statTol = fin ts)
    {fuel : Nat} {o' : Obj (Ext K)} (h : runSolver e fuel o = .ok (some (.successfulReturn, o'))) :
    ∃ (x : Fin n.nV → K) (z : Fin n.nA → K), o'.s.xk = some (ev x) ∧ o'.s.ykA = some (ev z) ∧
      o'.s.algo = some o'.s.stats.status ∧
      TypeIs (fun i => (P.L *ᵥ x) i ≤ tc ∧ (P.R *ᵥ x) i ≤ tc) (yL z) (yR z) tc o'.s.stats.status := by
  obtain ⟨n', xl, ya, u, v, hn, hx, hya, hu, hv, ha, hst⟩ := C32_any h
  obtain ⟨s, hs, hp⟩ := run_last h
  obtain ⟨off, h1, hd, ho, hsp, r, b, x, p, a, y, hxs, hb⟩ := hS.head hs
  obtain ⟨_, _, _, _, hxe, hye, _⟩ := pass_success hd hxs hb (by rw [ho]; exact hts) (by rw [ho]; exact htc) hp rfl
  dsimp only at hxe hye
  generalize x + a • p = x' at hxe
  generalize yLin y = z at hye
  rw [hd.dims] at hn
  injection hn with hn
  subst hn
  rw [hx] at hxe
  injection hxe with hxe
  subst hxe
  rw [hya] at hye
  injection hye with hye
  subst hye
  refine ⟨x', z, hx, hya, ha, ?_⟩
  rw [mulDS_exact hd.L x' (by simp [Env.alloc])] at hu
  rw [mulDS_exact hd.R x' (by simp [Env.alloc])] at hv
  injection hu with hu
  injection hv with hv
  rw [ho, htc, ← hu, ← hv] at hst
  rw [hst]
  refine typeOf_is _ _ _ _ fun q => ?_
  simp only [List.mem_map, List.mem_filter, List.mem_range]
  constructor
  · rintro ⟨i, ⟨hi, hw⟩, rfl⟩
    have e1 := gt_ev (P.L *ᵥ x') ⟨i, hi⟩
    have e2 := gt_ev (P.R *ᵥ x') ⟨i, hi⟩
    dsimp only at e1 e2
    rw [e1, e2, fin_le, fin_le, Bool.and_eq_true, decide_eq_true_eq, decide_eq_true_eq] at hw
    refine ⟨⟨i, hi⟩, hw, ?_⟩
    rw [gt_ev' z (by simp only [Dims.nA]; omega), gt_ev' z (by simp only [Dims.nA]; omega)]
    rfl
  · rintro ⟨i, hw, rfl⟩
    refine ⟨i, ⟨i.2, ?_⟩, ?_⟩
    · rw [gt_ev, gt_ev, fin_le, fin_le, Bool.and_eq_true, decide_eq_true_eq, decide_eq_true_eq]
      exact hw
    · have := i.2
      rw [gt_ev' z (by simp only [Dims.nA]; omega), gt_ev' z (by simp only [Dims.nA]; omega)]
      rfl

/-- C32: no index counts as weak if one side exceeds the tolerance at each index, as it does at feasible points if one of
the lower bounds of each pair exceeds the tolerance; then S-stationarity is reported whatever the multipliers are. -/
theorem C32_shift (hS : Setup e o n P x0 r0 f) {tc : K} (htc : o.d.opts.complTol = fin tc) (h0 : 0 < tc) {ts : K}
    (hts : o.d.opts.statTol = fin ts) {fuel : Nat} {o' : Obj (Ext K)}
    (h : runSolver e fuel o = .ok (some (.successfulReturn, o'))) {x : Fin n.nV → K} (hx : o'.s.xk = some (ev x))
    (hw : ∀ i, tc < (P.L *ᵥ x) i ∨ tc < (P.R *ᵥ x) i) : o'.s.stats.status = .sStat := by
  obtain ⟨x', z, hx', _, _, ht⟩ := C32_type hS htc hts h
  rw [hx] at hx'
  have := ev_inj (Option.some.inj hx')
  subst this
  refine ht.unique h0 fun i hi => ?_
  rcases hw i with hw | hw
  · exact absurd hw (not_lt.mpr hi.1)
  · exact absurd hw (not_lt.mpr hi.2)

/-- the multipliers in use at the head of the main loop are those of an exact solution of a subproblem -/
theorem head_kkt (hS : Setup e o n P x0 r0 f) (hB : BoundsAre o n lA uA l u) (hE : ExactOn e n (IsSub P lA uA l u))
    {s : St (Ext K)} (h : AtHead e o d s) : ∃ (g v : Fin n.nV → K) (z : Fin n.nA → K) (w : Fin n.nV → K),
      s.ykA = some (ev z) ∧ (P.subQp lA uA l u g).Kkt v z w := by
  have key : ∀ {off : Nat} (_ : DataOK d n off) {c : Nat} {q : Req (Ext K)} {g v : Fin n.nV → K} {y : Fin (off + n.nA) → K},
      d.sub = some q.sub → q.Is n (P.subQp lA uA l u g) → QpOk q.sub (e.qp c q) → AnsIs q.sub (e.qp c q) v y →
      ∃ w, (P.subQp lA uA l u g).Kkt v (yLin y) w := by
    intro off hd c q g v y hsub hq hok hans
    obtain ⟨v', z, w, hr, hk⟩ := hE c q _ hq ⟨g, rfl⟩ hok
    have ev : v' = v := by
      funext i
      have := (hr.1 i).symm.trans (hans.1 i)
      injection this
    have ez : yLin y = z := by
      have h1 := hr.2
      have h2 := hans.2
      rcases hd.sub with ⟨Q, A, hs, hoff⟩ | ⟨Q, A, hs, hoff⟩ | ⟨Q, A, hs, _, hAm, hoff, _⟩
      · rw [hsub] at hs
        injection hs with hs
        rw [hs] at h1 h2
        dsimp only at h1 h2
        subst hoff
        funext i
        have := (h1.2 i).symm.trans (h2 ⟨n.nV + i, by have := i.2; omega⟩)
        injection this with this
        exact this.symm
      · rw [hsub] at hs
        injection hs with hs
        rw [hs] at h1 h2
        dsimp only at h1 h2
        subst hoff
        funext i
        have := (h1.2 i).symm.trans (h2 ⟨n.nV + i, by have := i.2; omega⟩)
        injection this with this
        exact this.symm
      · rw [hsub] at hs
        injection hs with hs
        rw [hs] at h1 h2
        dsimp only at h1 h2
        have hoff : off = 0 := by omega
        subst hoff
        funext i
        have h3 := h2 ⟨0 + i, by have := i.2; omega⟩
        dsimp only at h3
        have h4 : (e.qp c q).y (0 + i.1) = fin (-z i) := by rw [Nat.zero_add]; exact h1.1 i
        rw [h4, fin_neg, neg_neg] at h3
        injection h3 with h3
        exact h3.symm
    subst ev ez
    exact ⟨w, hk⟩
  have hh := h
  obtain ⟨s0, h0, h⟩ := h
  cases h with
  | start =>
    obtain ⟨off, h1, h2, h3, h4, v, y, sub, a, b, y0, h5, h6, hs, ha, hb, h7, h8⟩ :=
      enters_x hS.ready hS.holds hS.x0 hS.rho0 hS.ans h0
    have hq := (hS.sends hB hh).is hs ha hb true (if d.opts.zeroFirst then P.g else r0 • (P.C *ᵥ x0) + P.g) o.s.xk y0
    obtain ⟨w, hk⟩ := key h1 hs hq h7 h8
    exact ⟨_, v, _, w, h5.ykA, hk⟩
  | pass hr hp =>
    obtain ⟨off, h0', hd, ho, hsp, r, b, x, p, a, y, hx, hb⟩ := hS.head ⟨s0, h0, hr⟩
    obtain ⟨r', b', c, k, x', v, y', sub, la, ua, _, hb', hs, hla, hua, hxe, hx', hok, hv, rfl, _⟩ :=
      pass_x h0' hd hS.ans (by rw [ho]; exact hS.factor) hS.f0 hx hb hp
    have hq := (hS.sends hB hh).is hs hla hua false (r' • (P.C *ᵥ (x + a • p)) + P.gT b' r') none none
    obtain ⟨w, hk⟩ := key h0' hs hq hok hv
    exact ⟨_, v, _, w, hx'.ykA, hk⟩

/-- C32: if both sides of the complementarity pairs have no upper bounds and all subproblems are solved exactly, every
successful run reports S-stationarity: the classification uses the multipliers of the subproblem, which are never negative.
(That the point need not be S-stationary is shown by `C32_fails`.) -/
theorem C32_always (hS : Setup e o n P x0 r0 f) (hB : BoundsAre o n lA uA l u) (hE : ExactOn e n (IsSub P lA uA l u))
    (hL : ∀ i, n.nC ≤ i.1 → uA i = pinf) {tc : K} (htc : o.d.opts.complTol = fin tc) (h0 : 0 < tc) {ts : K}
    (hts : o.d.opts.statTol = fin ts) {fuel : Nat} {o' : Obj (Ext K)}
    (h : runSolver e fuel o = .ok (some (.successfulReturn, o'))) : o'.s.stats.status = .sStat := by
  obtain ⟨x, z, _, hz, _, ht⟩ := C32_type hS htc hts h
  obtain ⟨s, hs, hp⟩ := run_last h
  obtain ⟨g, v, z', w, hz', hk⟩ := head_kkt hS hB hE hs
  obtain ⟨off, h1, hd, ho, hsp, r, b, x1, p, a, y, hxs, hb⟩ := hS.head hs
  obtain ⟨_, _, _, _, _, hye, _⟩ := pass_success hd hxs hb (by rw [ho]; exact hts) (by rw [ho]; exact htc) hp rfl
  dsimp only at hye
  rw [hxs.ykA] at hz'
  have e1 := ev_inj (Option.some.inj hz')
  rw [hz] at hye
  have e2 := ev_inj (Option.some.inj hye)
  rw [e1] at e2
  subst e2
  have nn : ∀ i : Fin n.nA, n.nC ≤ i.1 → 0 ≤ z i := by
    intro i hi
    by_contra hc
    have := hk.zneg i (not_le.mp hc)
    rw [show (P.subQp lA uA l u g).uA = uA from rfl, hL i hi] at this
    cases this
  exact ht.unique h0 fun i _ => ⟨nn _ (by simp), nn _ (by simp only; omega)⟩

end

namespace Ex

/-- minimises `x² + y² + g'(x,y)` over `x ≥ 0`, `y ≥ 0` -/
def ans4 (a b : ℚ) : List ℚ × List ℚ × List ℚ :=
  ([max 0 (-a/2), max 0 (-b/2)], [2 * max 0 (-a/2) + a, 2 * max 0 (-b/2) + b], [0, 0])

/-- `min (x-1)² + (y-1)²` subject to `0 ≤ x ⟂ y ≥ 0` -/
abbrev prob4 := prob [2, 0, 0, 2] [-2, -2] [0] [0]

/-- its arguments -/
def args4 := argsOf [2, 0, 0, 2] [-2, -2] [0] [0] none none none

theorem exact4 : ExactOn (solver ans4) dim (IsSub prob4 ![fin 0, fin 0] (fun _ => pinf) (fun _ => ninf) (fun _ => pinf)) := by
  apply solver_exact
  intro g
  refine ⟨![max 0 (-g 0 / 2), max 0 (-g 1 / 2)], ![2 * max 0 (-g 0 / 2) + g 0, 2 * max 0 (-g 1 / 2) + g 1], 0, rfl, ?_⟩
  have h1 := le_max_left 0 (-g 0 / 2)
  have h2 := le_max_right 0 (-g 0 / 2)
  have h3 := le_max_left 0 (-g 1 / 2)
  have h4 := le_max_right 0 (-g 1 / 2)
  have c1 : 0 = max 0 (-g 0 / 2) ∨ -g 0 / 2 = max 0 (-g 0 / 2) := by
    rcases max_choice 0 (-g 0 / 2) with h | h
    · exact Or.inl h.symm
    · exact Or.inr h.symm
  have c2 : 0 = max 0 (-g 1 / 2) ∨ -g 1 / 2 = max 0 (-g 1 / 2) := by
    rcases max_choice 0 (-g 1 / 2) with h | h
    · exact Or.inl h.symm
    · exact Or.inr h.symm
  generalize max 0 (-g 0 / 2) = a at *
  generalize max 0 (-g 1 / 2) = b at *
  refine kkt_of (Fin.forall_fin_two.mpr ⟨?_, ?_⟩) (fun i => rfl) (fun i => rfl) (fun i => rfl)
    (Fin.forall_fin_two.mpr ⟨?_, ?_⟩) (Fin.forall_fin_two.mpr ⟨fun h => ?_, fun h => ?_⟩)
    (Fin.forall_fin_two.mpr ⟨fun h => ?_, fun h => ?_⟩) (fun i h => absurd h (lt_irrefl _))
    (fun i h => absurd h (lt_irrefl _))
  · simpa using h1
  · simpa using h3
  · simp
  · simp
  · have h : 0 < 2 * a + g 0 := h
    rcases c1 with c | c
    · exact congrArg fin c
    · linarith
  · have h : 0 < 2 * b + g 1 := h
    rcases c2 with c | c
    · exact congrArg fin c
    · linarith
  · have h : 2 * a + g 0 < 0 := h
    linarith
  · have h : 2 * b + g 1 < 0 := h
    linarith

/-- options of the fourth example -/
def opts4 : Options (Ext ℚ) := { opts with
  rho0 := fin 4000
  complTol := fin (1 / 1000) }

theorem look4 : look (go (solver ans4) opts4 args4 20) = some ⟨.successfulReturn, some 2, some 0, some (fin 4000),
    some (emb [1/2001, 1/2001]), some (emb [0, 0]), some (emb [0, 0, -4000/2001, -4000/2001])⟩ := by decide +kernel

theorem load4 : (loadDense (solver ans4) (Obj.new opts4 2 0 1) args4).map (·.1) = .ok .successfulReturn := by rfl

/-- the run of the fourth example -/
theorem wit4 : ∃ o o', Setup (solver ans4) o dim prob4 (fun _ => 0) 4000 2 ∧ o.d.sparse = false ∧ o.d.opts = opts4 ∧
    BoundsAre o dim ![fin 0, fin 0] (fun _ => pinf) (fun _ => ninf) (fun _ => pinf) ∧
    runSolver (solver ans4) 20 o = .ok (some (.successfulReturn, o')) ∧ o'.d.boxOff = some 2 ∧
    o'.s.xk = some (emb [1/2001, 1/2001]) ∧ o'.s.ykA = some (emb [0, 0]) ∧
    o'.s.yk = some (emb [0, 0, -4000/2001, -4000/2001]) := by
  obtain ⟨o, hl, hS, hsp, ho, hst⟩ := setup_of (v := fun _ => 0) (argsOf_are (Q := [2, 0, 0, 2]) (g := [-2, -2]) (lbL := [0])
    (lbR := [0]) (lb := none) (ub := none) (x0 := none) rfl rfl rfl rfl (by rintro v ⟨⟩) (by rintro v ⟨⟩) (Or.inl ⟨rfl, rfl⟩))
    (solver_fin ans4) (op := opts4) (r0 := 4000) (f := 2) (by decide +kernel) (by decide +kernel) (by decide) load4
  obtain ⟨o', hr, h1, h2, h3, h4, h5, h6⟩ := look_inv hl look4
  refine ⟨o, o', hS, hsp, ho, ⟨?_, ?_, ?_, ?_⟩, hr, h1, h4, h5, h6⟩
  · rw [hst.lbA]; decide +kernel
  · rw [hst.ubA]; decide +kernel
  · rw [hst.lb]; decide +kernel
  · rw [hst.ub]; decide +kernel

end Ex

/-- C32: the reported type can be wrong even if every QP is solved exactly, `Q` is symmetric and positive definite and there
are no nonzero lower complementarity bounds: S-stationarity is reported at a point where the only complementarity pair is
weak, the returned multipliers of both its sides are negative, and so are those of all multipliers that solve the
stationarity condition up to an error of one. -/
theorem C32_fails : ∃ (e : Env (Ext ℚ)) (o o' : Obj (Ext ℚ)) (P : Prob ℚ ⟨2, 0, 1⟩) (fuel : Nat) (tc ts : ℚ) (x : Fin 2 → ℚ)
    (y : Fin 4 → ℚ),
    (∃ x0 r0 f, Setup e o ⟨2, 0, 1⟩ P x0 r0 f) ∧ P.Qᵀ = P.Q ∧ (∀ v, 0 ≤ v ⬝ᵥ (P.Q *ᵥ v)) ∧ P.lbL = 0 ∧ P.lbR = 0 ∧
    (∃ lA uA l u, BoundsAre o ⟨2, 0, 1⟩ lA uA l u ∧ ExactOn e ⟨2, 0, 1⟩ (IsSub P lA uA l u) ∧ (∀ i, uA i = pinf) ∧
      (∀ i, l i = ninf) ∧ ∀ i, u i = pinf) ∧
    o.d.opts.complTol = fin tc ∧ o.d.opts.statTol = fin ts ∧ runSolver e fuel o = .ok (some (.successfulReturn, o')) ∧
    o'.s.stats.status = .sStat ∧ o'.s.xk = some (ev x) ∧ o'.s.yk = some (ev y) ∧
    (P.L *ᵥ x) 0 ≤ tc ∧ (P.R *ᵥ x) 0 ≤ tc ∧ y 2 < -1 ∧ y 3 < -1 ∧
    ∀ z : Fin 2 → ℚ, (∀ i : Fin 2, |P.gradObj x i - (P.AAᵀ *ᵥ z) i| < 1) → ∀ i, z i < 0 := by
  obtain ⟨o, o', hS, _, ho, hB, hr, h1, h2, h3, h4⟩ := Ex.wit4
  have htc : o.d.opts.complTol = fin (1 / 1000) := by rw [ho]; decide +kernel
  have hts : o.d.opts.statTol = fin (2221 / 10000000000000) := by rw [ho]; decide +kernel
  refine ⟨_, o, o', Ex.prob4, 20, _, _, ![1 / 2001, 1 / 2001], ![0, 0, -4000 / 2001, -4000 / 2001], ⟨_, _, _, hS⟩,
    (Ex.prob_psd (by decide)).1, (Ex.prob_psd (by decide)).2, ?_, ?_, ⟨_, _, _, _, hB, Ex.exact4, fun _ => rfl, fun _ => rfl,
    fun _ => rfl⟩, htc, hts, hr, C32_always hS hB Ex.exact4 (fun _ _ => rfl) htc (by norm_num) hts hr, ?_, ?_, ?_, ?_, ?_, ?_, ?_⟩
  · decide +kernel
  · decide +kernel
  · rw [h2]; decide +kernel
  · rw [h4]; decide +kernel
  · decide +kernel
  · decide +kernel
  · decide +kernel
  · decide +kernel
  · intro z hz i
    have := hz i
    rw [show (Ex.prob4.AAᵀ *ᵥ z) i = z i from Ex.prob_AAT z i] at this
    have hg : Ex.prob4.gradObj ![1 / 2001, 1 / 2001] i = 2 / 2001 - 2 := by
      clear this
      revert i
      decide +kernel
    rw [hg, abs_lt] at this
    linarith [this.1, this.2]

/-- C32: the hypotheses of `C32_type` and `C32_always` hold for this run -/
example : ∃ (o' : Obj (Ext ℚ)) (x : Fin 2 → ℚ) (z : Fin 2 → ℚ),
    o'.s.xk = some (ev x) ∧ o'.s.ykA = some (ev z) ∧ TypeIs (fun i => (Ex.prob4.L *ᵥ x) i ≤ 1 / 1000 ∧
      (Ex.prob4.R *ᵥ x) i ≤ 1 / 1000) (yL (n := Ex.dim) z) (yR (n := Ex.dim) z) (1 / 1000) o'.s.stats.status := by
  obtain ⟨o, o', hS, _, ho, hB, hr, h1, h2, h3, h4⟩ := Ex.wit4
  obtain ⟨x, z, hx, hz, _, ht⟩ := C32_type hS (tc := 1 / 1000) (by rw [ho]; decide +kernel)
    (ts := 2221 / 10000000000000) (by rw [ho]; decide +kernel) hr
  exact ⟨o', x, z, hx, hz, ht⟩

/-- C32: all four types occur -/
example : typeOf (fin (1/10) : Ext ℚ) [] = .sStat ∧ typeOf (fin (1/10) : Ext ℚ) [(fin 0, fin 1)] = .sStat ∧
    typeOf (fin (1/10) : Ext ℚ) [(fin 0, fin (-1))] = .mStat ∧ typeOf (fin (1/10) : Ext ℚ) [(fin (-1), fin (-1))] = .cStat ∧
    typeOf (fin (1/10) : Ext ℚ) [(fin (-1), fin 1)] = .wStat := by
  decide +kernel

/-- C32: a product equal to the tolerance of two negative multipliers is not accepted as C-stationary -/
example : typeOf (fin 1 : Ext ℚ) [(fin (-1), fin (-1))] = .wStat := by
  decide +kernel

end LCQ
