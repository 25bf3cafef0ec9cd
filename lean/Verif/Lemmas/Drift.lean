import Verif.Spec.Drift
import Verif.Lemmas.Round
import Verif.Lemmas.RoundEnd
import Verif.Lemmas.MergeQk
import Verif.Props.Certify
import Verif.Lemmas.Live

/-!
# The sparse penalised Hessian after a number of updates
-/

set_option linter.unusedSectionVars false

namespace LCQ
open Scalar

variable {α : Type} [Scalar α]

/-! ## entries by row and column -/

/-- first entry of a list with a given row -/
def findRow (i : Nat) (l : List (Int × α)) : Option α := (l.find? fun e => e.1.toNat = i).map Prod.snd

theorem entry_col (S : CSC α) (i j : Nat) : S.entry i j = findRow i (S.col j) := by
  unfold CSC.entry findRow CSC.col
  rw [List.range'_eq_map_range, List.find?_map, List.find?_map, Option.map_map, Option.map_map]
  rfl

theorem findRow_none {i : Nat} {l : List (Int × α)} (h : ∀ e ∈ l, (i : Int) < e.1) : findRow i l = none := by
  unfold findRow
  rw [Option.map_eq_none_iff, List.find?_eq_none]
  intro e he
  have := h e he
  simp
  omega

theorem findRow_cons (i : Nat) (e : Int × α) (l : List (Int × α)) :
    findRow i (e :: l) = if e.1.toNat = i then some e.2 else findRow i l := by
  unfold findRow
  rw [List.find?_cons]
  by_cases h : e.1.toNat = i <;> simp [h]

/-- rows not negative, strictly increasing -/
def RowsUp (l : List (Int × α)) : Prop := l.Pairwise (fun a b => a.1 < b.1) ∧ ∀ e ∈ l, 0 ≤ e.1

/-- value of a merged entry which is there only if one of the two is -/
def entOpt (v : Ent α → α) (i : Int) (q c : Option α) : Option α :=
  match q, c with
  | none, none => none
  | q, c => some (v ⟨i, q, c⟩)

theorem RowsUp.tail {e : Int × α} {l : List (Int × α)} (h : RowsUp (e :: l)) : RowsUp l :=
  ⟨(List.pairwise_cons.mp h.1).2, fun x hx => h.2 x (List.mem_cons_of_mem _ hx)⟩

theorem RowsUp.after {e : Int × α} {l : List (Int × α)} (h : RowsUp (e :: l)) {i : Nat} (hi : e.1.toNat = i) :
    findRow i l = none := by
  refine findRow_none fun x hx => ?_
  have h1 := (List.pairwise_cons.mp h.1).1 x hx
  have h2 := h.2 e (by simp)
  omega

theorem RowsUp.before {e : Int × α} {l : List (Int × α)} (h : RowsUp (e :: l)) {i : Nat} (hi : (i : Int) < e.1) :
    findRow i (e :: l) = none := by
  refine findRow_none fun x hx => ?_
  rcases List.mem_cons.mp hx with rfl | hx
  · exact hi
  · have h1 := (List.pairwise_cons.mp h.1).1 x hx
    omega

theorem mergeL_find (v : Ent α → α) (i : Nat) (a b : List (Int × α)) (ha : RowsUp a) (hb : RowsUp b) :
    findRow i ((mergeL a b).map (Ent.pair v)) = entOpt v i (findRow i a) (findRow i b) := by
  induction a, b using mergeL.induct with
  | case1 => simp [mergeL, findRow, entOpt]
  | case2 q qs ih =>
    have ih := ih ha.tail hb
    rw [mergeL, List.map_cons, findRow_cons, findRow_cons]
    by_cases h : q.1.toNat = i
    · have : q.1 = (i : Int) := by have := ha.2 q (by simp); omega
      simp [Ent.pair, h, findRow, entOpt, this]
    · simp only [Ent.pair, h, if_false]; exact ih
  | case3 c cs ih =>
    have ih := ih ha hb.tail
    rw [mergeL, List.map_cons, findRow_cons, findRow_cons]
    by_cases h : c.1.toNat = i
    · have : c.1 = (i : Int) := by have := hb.2 c (by simp); omega
      simp [Ent.pair, h, findRow, entOpt, this]
    · simp only [Ent.pair, h, if_false]; exact ih
  | case4 q qs c cs hlt ih =>
    have ih := ih ha.tail hb
    rw [mergeL, if_pos hlt, List.map_cons, findRow_cons, findRow_cons i q]
    by_cases h : q.1.toNat = i
    · have : q.1 = (i : Int) := by have := ha.2 q (by simp); omega
      rw [hb.before (by omega)]
      simp [Ent.pair, h, entOpt, this]
    · simp only [Ent.pair, h, if_false]; exact ih
  | case5 q qs c cs h1 hlt ih =>
    have ih := ih ha hb.tail
    rw [mergeL, if_neg h1, if_pos hlt, List.map_cons, findRow_cons, findRow_cons i c]
    by_cases h : c.1.toNat = i
    · have : c.1 = (i : Int) := by have := hb.2 c (by simp); omega
      rw [ha.before (by omega)]
      simp [Ent.pair, h, entOpt, this]
    · simp only [Ent.pair, h, if_false]; exact ih
  | case6 q qs c cs h1 h2 ih =>
    have ih := ih ha.tail hb.tail
    have he : c.1 = q.1 := by omega
    rw [mergeL, if_neg h1, if_neg h2, List.map_cons, findRow_cons, findRow_cons i q, findRow_cons i c]
    by_cases h : q.1.toNat = i
    · have : q.1 = (i : Int) := by have := ha.2 q (by simp); omega
      simp [Ent.pair, h, he, entOpt, this]
    · simp only [Ent.pair, he, h, if_false]; exact ih

theorem col_up {S : CSC α} (hv : S.Valid) (hs : S.Sorted) {j : Nat} (hj : j < S.n) : RowsUp (S.col j) := by
  have hm := hv.P_mono_step hj
  constructor
  · rw [CSC.col, List.pairwise_map]
    refine List.Pairwise.imp_of_mem ?_ List.pairwise_lt_range
    intro a b ha hb hab
    rw [List.mem_range] at ha hb
    exact hs j hj _ _ (by omega) (by omega) (by omega)
  · intro e he
    simp only [CSC.col, List.mem_map, List.mem_range] at he
    obtain ⟨k, hk, rfl⟩ := he
    exact (hv.rows _ (hv.lt_nnz (j := j) (k := S.P j + k) hj (by omega))).1

theorem mcsc_entry {Q C : CSC α} {n : Nat} (hQ : Q.Valid) (sQ : Q.Sorted) (hC : C.Valid) (sC : C.Sorted) (nQ : Q.n = n)
    (nC : C.n = n) (v : Ent α → α) (i : Nat) {j : Nat} (hj : j < n) :
    (mcsc Q C n v).entry i j = entOpt v i (Q.entry i j) (C.entry i j) := by
  rw [entry_col, entry_col, entry_col, mcsc, cscOf_col _ _ _ hj, mcol,
    mergeL_find v i _ _ (col_up hQ sQ (by omega)) (col_up hC sC (by omega))]

/-! ## the values after `k` updates -/

/-- value of a merged entry after `k` updates -/
def valAt (o : Options α) : Nat → Ent α → α
  | 0 => Ent.val (penalty o 0)
  | k + 1 => Ent.bump (penalty o (k + 1) *. (one -. one /. o.factor)) (valAt o k)

theorem valAt_entry (o : Options α) (i : Int) (q c : Option α) (k : Nat) :
    entOpt (valAt o k) i q c = hessEntry (penalty o) o.factor q c k := by
  induction k with
  | zero => cases q <;> cases c <;> rfl
  | succ k ih => cases q <;> cases c <;> simp only [entOpt, hessEntry, valAt, Ent.bump] at ih ⊢ <;> rw [← ih] <;> rfl

/-- the sparse penalised Hessian at the head of the main loop -/
def SparseQk (d : Data α) (n : Dims) (s : St α) : Prop :=
  ∃ (Q C : CSC α) (k : Nat), d.Qs = some Q ∧ d.Cs = some C ∧ s.outer = some (k : Int) ∧ s.rho = some (penalty d.opts k) ∧
    s.Qks = some (mcsc Q C n.nV (valAt d.opts k)) ∧ s.idxC = cpos 0 (mall Q C n.nV)

theorem setQk_sparse {d : Data α} {s s' : St α} {n : Dims} {off : Nat} (hd : DataOK d n off) (hsp : d.sparse = true)
    (hi : s.idxC = []) (ho : s.outer = some 0) (hr : s.rho = some (penalty d.opts 0)) (h : setQk d s = .ok s') :
    SparseQk d n s' := by
  rcases hd.Q.cases with ⟨_, Q, hQ, vQ, mQ, nQ⟩ | ⟨hsp', _⟩
  · rcases hd.C.cases with ⟨_, C, hC, vC, mC, nC⟩ | ⟨hsp', _⟩
    · simp only [setQk, hd.dims, hr, hsp, hQ, hC, initd_some, deref_some, ok_bind, if_true,
        mergeQC_ok (penalty d.opts 0) Q C vQ.toValidPtr vC.toValidPtr n.nV nQ nC, hi, List.nil_append] at h
      injection h with h
      subst h
      refine ⟨Q, C, 0, hQ, hC, ho, rfl, ?_, rfl⟩
      simp [mcsc, cscOf, buildOf, createCSC, valAt]
    · simp [hsp] at hsp'
  · simp [hsp] at hsp'

theorem bump_sparse {d : Data α} {s s' : St α} {n : Dims} {off : Nat} (hd : DataOK d n off) (hsp : d.sparse = true)
    (hs : SparseQk d n s) (h : bump d s = .ok s') : SparseQk d n s' := by
  obtain ⟨Q, C, k, hQ, hC, ho, hr, hqk, hidx⟩ := hs
  have vC : C.ValidPtr ∧ C.n = n.nV := by
    rcases hd.C.cases with ⟨_, C', hC', vC, mC, nC⟩ | ⟨hsp', _⟩
    · rw [hC] at hC'
      injection hC' with hC'
      rw [hC']
      exact ⟨vC.toValidPtr, nC⟩
    · simp [hsp] at hsp'
  simp only [bump, updatePenalty, bind_eq_ok, initd_eq_ok] at h
  obtain ⟨s2, ⟨r, hr', s1, h1, h2⟩, s3, h3, h⟩ := h
  rw [hr] at hr'
  injection hr' with hr'
  subst hr'
  simp only [updateQk, hd.dims, hsp, hqk, hC, initd_some, deref_some, ok_bind, if_true, hidx] at h1
  rw [mcsc_x, bumpQks_ok _ _ _ vC.1 _ _ vC.2, ok_bind, mcsc_setx] at h1
  injection h1 with h1
  subst h1
  obtain ⟨c, rfl⟩ := updateGTilde_inv h2
  obtain ⟨t, st, ht, htm, hst, rfl⟩ := updateOuterIter_inv h3
  injection h with h
  subst h
  simp only [ho] at ht
  injection ht with ht
  subst ht
  exact ⟨Q, C, k + 1, hQ, hC, by simp, rfl, rfl, rfl⟩

theorem head_sparse {e : Env α} {o : Obj α} {n : Dims} {d : Data α} {s : St α} (hR : Ready o n) (hsp : o.d.sparse = true)
    (h : AtHead e o d s) : SparseQk d n s ∧ d.opts = o.d.opts ∧ d.Qs = o.d.Qs ∧ d.Cs = o.d.Cs ∧ ∃ off, DataOK d n off := by
  obtain ⟨s0, ⟨i, hi, hi1, rfl, hf⟩, h⟩ := h
  obtain ⟨i', hi', hall⟩ := initializeSolver_total (e := e) hR
  rw [hi] at hi'
  injection hi' with hi'
  subst hi'
  obtain ⟨off, hd, _, _, _, hix, _⟩ := hall hi1
  obtain ⟨nd, bo, l, u, sub, y, w, gt', pc, gp, hshape⟩ := initializeSolver_ok hi hi1
  have hsp : i.2.d.sparse = true := by rw [hshape]; exact hsp
  have hix := hix hsp
  refine ⟨?_, by rw [hshape], by rw [hshape], by rw [hshape], off, hd⟩
  induction h with
  | start =>
    obtain ⟨h0, h1, h2, h3, h4, h5, h6⟩ := Live.start hi hi1
    simp only [firstStep, bind_eq_ok] at hf
    obtain ⟨s1, h7, q, hq, hf⟩ := hf
    obtain ⟨gk, rfl⟩ := firstGradient_inv h7
    obtain ⟨_, _, _, _, _, _, _, _, _, _, _, _, _, _, _, _, _, _, _, _, _, hq2⟩ := solveQP_inv hq
    split at hf
    · cases hf
    · simp only [bind_eq_ok, initd_eq_ok] at hf
      obtain ⟨s3, h8, r, hr, hf⟩ := hf
      have := setQk_sparse hd hsp (by rw [hq2]; exact hix) (by rw [hq2]; exact h3) (by rw [hq2, h0]; exact h4) h8
      injection hf with hf
      injection hf with hf
      subst hf
      exact this
  | pass _ hp ih =>
    obtain ⟨s1, s2, s3, h1, h2, h3, ⟨_, _, _, _, ⟨⟩⟩ | ⟨s4, t, rho, h4, _, _, h5⟩⟩ := pass_inv hp
    have k1 : SparseQk i.2.d n s1 := by
      obtain ⟨x, A, B, C, p, l, ss, t, j, _, _, _, _, hpe, _, _, hs1⟩ := advance_inv h1
      rw [hs1, hpe]
      exact ih
    have k2 : SparseQk i.2.d n s2 := by
      obtain ⟨q, hh, _, hq2, ⟨_, rfl⟩ | ⟨_, h⟩⟩ := dynamicPenalty_inv h2
      · rw [hq2]; exact k1
      · exact bump_sparse hd hsp (by rw [hq2]; exact k1) h
    have k3 : SparseQk i.2.d n s3 := by
      obtain ⟨gk, rfl⟩ := updateLinearization_inv h3
      exact k2
    have k4 : SparseQk i.2.d n s4 := by
      rcases h4 with ⟨_, rfl⟩ | ⟨_, _, h4⟩
      · exact k3
      · exact bump_sparse hd hsp k3 h4
    rcases h5 with ⟨_, ⟨⟩⟩ | ⟨_, _, ⟨⟩⟩ | ⟨_, _, h5⟩
    obtain ⟨gk, q, hq, ⟨_, ⟨⟩⟩ | ⟨_, _, _, _, _, h6⟩⟩ := nextStep_inv h5
    obtain ⟨_, _, _, _, _, _, _, _, _, _, _, _, _, _, _, _, _, _, _, _, _, hq2⟩ := solveQP_inv hq
    injection h6 with h6
    rw [h6, hq2]
    exact k4

/-! ## rounding errors -/

section
variable {K : Type} [Field K] [LinearOrder K] [IsStrictOrderedRing K] {u t : K}

theorem Apx.div1 (F : RoundsDiv α K u t) {f : α} {φ : K} (hf : F.val f = some φ) (h0 : φ ≠ 0) :
    Apx F.toRounds 1 (Scalar.one /. f) (1 / φ) (1 / |φ| + t) := by
  have ht := F.t0
  refine ⟨by rw [abs_div, abs_one]; linarith, fun x hx => ?_⟩
  obtain ⟨y, hy, hb⟩ := F.div _ _ _ _ hf h0 hx
  rw [F.one] at hy
  injection hy with hy
  subst hy
  rw [abs_div (1 : K), abs_one] at hb
  rw [pow_one, add_sub_cancel_left]
  exact hb

/-- what one update adds -/
theorem Apx.step (F : RoundsDiv α K u t) {f : α} {φ : K} (hf : F.val f = some φ) (h0 : φ ≠ 0) (r c : α) :
    Apx F.toRounds 4 ((r *. (Scalar.one -. Scalar.one /. f)) *. c) (F.v r * (1 - 1 / φ) * F.v c)
      ((|F.v r| * (1 + 1 / |φ| + t) + t) * |F.v c| + t) := by
  have h1 := ((Apx.one F.toRounds).depth (Nat.zero_le 1)).sub (Apx.div1 F hf h0)
  have h2 := ((Apx.val F.toRounds r).mul' h1 (i := 3) (by omega)).mul' (Apx.val F.toRounds c) (i := 4) (by omega)
  exact h2.congr rfl (by rw [add_assoc])

/-- exact value of what is added up -/
def hessSum (φ : K) (r : Nat → K) (q c : K) (k : Nat) : K :=
  q + r 0 * c + ∑ j ∈ Finset.range k, r (j + 1) * (1 - 1 / φ) * c

theorem hess_apx (F : RoundsDiv α K u t) {f : α} {φ : K} (hf : F.val f = some φ) (h0 : φ ≠ 0) (rho : Nat → α) (q c : Option α)
    (k : Nat) (v : α) (hv : hessEntry rho f q c k = some v) :
    Apx F.toRounds (k + 4) v (hessSum φ (fun j => F.v (rho j)) (F.vo q) (F.vo c) k)
      (|F.vo q| + (|F.v (rho 0)| * |F.vo c| + t) +
        ∑ j ∈ Finset.range k, ((|F.v (rho (j + 1))| * (1 + 1 / |φ| + t) + t) * |F.vo c| + t)) := by
  have ht := F.t0
  induction k generalizing v with
  | zero =>
    simp only [hessSum, Finset.range_zero, Finset.sum_empty, add_zero]
    cases q with
    | none =>
      cases c with
      | none => cases hv
      | some c =>
        injection hv with hv
        subst hv
        refine ((Apx.val F.toRounds (rho 0)).mul' (Apx.val F.toRounds c) (i := 4) (by omega)).congr ?_ ?_ <;>
          simp [Rounds.vo]
    | some q =>
      cases c with
      | none =>
        injection hv with hv
        subst hv
        have := ((Apx.val F.toRounds q).mono (j := 4) (by omega) (le_add_of_nonneg_right ht))
        refine this.congr ?_ ?_ <;> simp [Rounds.vo]
      | some c =>
        injection hv with hv
        subst hv
        exact (Apx.val F.toRounds q).add' ((Apx.val F.toRounds (rho 0)).mul' (Apx.val F.toRounds c) (i := 1) (by omega))
          (by omega)
  | succ k ih =>
    rw [Finset.sum_range_succ]
    cases c with
    | none =>
      have := ih v hv
      refine (this.mono (j := k + 1 + 4) (by omega) (l := _) ?_).congr ?_ rfl
      · rw [← add_assoc]
        simp only [Rounds.vo, abs_zero, mul_zero, zero_add]
        linarith
      · simp [hessSum, Rounds.vo]
    | some c =>
      simp only [hessEntry, Option.map_eq_some_iff] at hv
      obtain ⟨w, hw, rfl⟩ := hv
      refine ((ih w hw).add' ((Apx.step F hf h0 (rho (k + 1)) c).depth (j := k + 4) (by omega)) (i := k + 1 + 4)
        (by omega)).congr ?_ ?_
      · simp only [hessSum, Finset.sum_range_succ, Rounds.vo]; ring
      · simp only [Rounds.vo]; ring

theorem rho_fin (F : RoundsDiv α K u t) {f : α} {rho : Nat → α} (hr : ∀ j, rho (j + 1) = rho j *. f) {k : Nat} {x : K}
    (hk : F.val (rho k) = some x) : ∀ j ≤ k, ∃ y, F.val (rho j) = some y := by
  induction k generalizing x with
  | zero => intro j hj; exact ⟨x, by rw [Nat.le_zero.mp hj]; exact hk⟩
  | succ k ih =>
    intro j hj
    rcases Nat.lt_or_ge j (k + 1) with h | h
    · rw [hr] at hk
      obtain ⟨y, _, hy, _⟩ := F.mul _ _ _ hk
      exact ih hy j (by omega)
    · exact ⟨x, by rw [show j = k + 1 by omega]; exact hk⟩

theorem hessSum_rho (F : RoundsDiv α K u t) {f : α} {φ : K} (hf : F.val f = some φ) (h0 : φ ≠ 0) {rho : Nat → α}
    (hr : ∀ j, rho (j + 1) = rho j *. f) (q c : K) (k : Nat) (hk : ∀ j ≤ k, ∃ y, F.val (rho j) = some y) :
    |hessSum φ (fun j => F.v (rho j)) q c k - (q + F.v (rho k) * c)| ≤
      u * ∑ j ∈ Finset.range k, (|F.v (rho j)| + t / |φ|) * |c| := by
  have hp : 0 < |φ| := abs_pos.mpr h0
  induction k with
  | zero => simp [hessSum]
  | succ k ih =>
    have ih := ih fun j hj => hk j (by omega)
    rw [Finset.sum_range_succ, mul_add]
    have e : hessSum φ (fun j => F.v (rho j)) q c (k + 1) - (q + F.v (rho (k + 1)) * c) =
        (hessSum φ (fun j => F.v (rho j)) q c k - (q + F.v (rho k) * c)) +
          (F.v (rho k) - F.v (rho (k + 1)) / φ) * c := by
      simp only [hessSum, Finset.sum_range_succ]; ring
    rw [e]
    refine (abs_add_le _ _).trans (add_le_add ih ?_)
    rw [abs_mul, ← mul_assoc]
    refine mul_le_mul_of_nonneg_right ?_ (abs_nonneg _)
    obtain ⟨y, hy⟩ := hk (k + 1) (by omega)
    have hy' := hy
    rw [hr] at hy'
    obtain ⟨a, b, ha, hb, hab⟩ := F.mul _ _ _ hy'
    rw [hf] at hb
    injection hb with hb
    subst hb
    have e1 : F.v (rho k) = a := by rw [Rounds.v, ha]; rfl
    have e2 : F.v (rho (k + 1)) = y := by rw [Rounds.v, hy]; rfl
    rw [e1, e2]
    have e3 : a - y / φ = -((y - a * φ) / φ) := by field_simp; ring
    rw [e3, abs_neg, abs_div, div_le_iff₀ hp]
    have e4 : u * (|a| + t / |φ|) * |φ| = u * (|a * φ| + t) := by rw [abs_mul]; field_simp
    rw [e4]
    exact hab

theorem hess_bound (F : RoundsDiv α K u t) {f : α} {φ : K} (hf : F.val f = some φ) (h0 : φ ≠ 0) {rho : Nat → α}
    (hr : ∀ j, rho (j + 1) = rho j *. f) {q c : Option α} {k : Nat} {v : α} (hv : hessEntry rho f q c k = some v) {w : K}
    (hw : F.val v = some w) :
    |w - (F.vo q + F.v (rho k) * F.vo c)| ≤
      ((1 + u) ^ (k + 4) - 1) * magHess t φ (fun j => F.v (rho j)) (F.vo q) (F.vo c) k := by
  have ht := F.t0
  have hu := F.u0
  have h1 := (hess_apx F hf h0 rho q c k v hv).2 w hw
  have h2 : |hessSum φ (fun j => F.v (rho j)) (F.vo q) (F.vo c) k - (F.vo q + F.v (rho k) * F.vo c)| ≤
      u * ∑ j ∈ Finset.range k, (|F.v (rho j)| + t / |φ|) * |F.vo c| := by
    cases c with
    | none => simp [Rounds.vo, hessSum]
    | some c =>
      refine hessSum_rho F hf h0 hr _ _ k ?_
      have : ∃ x, F.val (rho k) = some x := by
        cases k with
        | zero =>
          cases q with
          | none =>
            injection hv with hv
            subst hv
            obtain ⟨x, _, hx, _⟩ := F.mul _ _ _ hw
            exact ⟨x, hx⟩
          | some q =>
            injection hv with hv
            subst hv
            obtain ⟨_, y, _, hy, _⟩ := F.add _ _ _ hw
            obtain ⟨x, _, hx, _⟩ := F.mul _ _ _ hy
            exact ⟨x, hx⟩
        | succ k =>
          simp only [hessEntry, Option.map_eq_some_iff] at hv
          obtain ⟨_, _, rfl⟩ := hv
          obtain ⟨_, y, _, hy, _⟩ := F.add _ _ _ hw
          obtain ⟨x, _, hx, _⟩ := F.mul _ _ _ hy
          obtain ⟨x, _, hx, _⟩ := F.mul _ _ _ hx
          exact ⟨x, hx⟩
      obtain ⟨x, hx⟩ := this
      exact rho_fin F hr hx
  have h3 : u ≤ (1 + u) ^ (k + 4) - 1 := by
    have : (1 + u) ^ 1 ≤ (1 + u) ^ (k + 4) := pow_le_pow_right₀ (by linarith) (by omega)
    linarith [pow_one (1 + u)]
  have h4 : 0 ≤ ∑ j ∈ Finset.range k, (|F.v (rho j)| + t / |φ|) * |F.vo c| :=
    Finset.sum_nonneg fun j _ => by positivity
  rw [show w - (F.vo q + F.v (rho k) * F.vo c) = (w - hessSum φ (fun j => F.v (rho j)) (F.vo q) (F.vo c) k) +
    (hessSum φ (fun j => F.v (rho j)) (F.vo q) (F.vo c) k - (F.vo q + F.v (rho k) * F.vo c)) by ring]
  refine ((abs_add_le _ _).trans (add_le_add h1 (h2.trans (mul_le_mul_of_nonneg_right h3 h4)))).trans (le_of_eq ?_)
  rw [← mul_add, magHess, add_assoc, ← Finset.sum_add_distrib]

end

end LCQ
