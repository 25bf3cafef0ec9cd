import Verif.Lemmas.RoundSparseEnd
import Verif.Lemmas.RoundLoad
import Verif.Props.SafetySparse

/-!
# The members after loading sparse data, with rounding errors
-/

set_option linter.unusedSectionVars false

namespace LCQ
open Scalar
open scoped Matrix

/-! ## rows of a list of entries -/

section
variable {α : Type} [Scalar α] {n : Dims}

theorem findRow_append (i : Nat) (a b : List (Int × α)) :
    findRow i (a ++ b) = (findRow i a).orElse fun _ => findRow i b := by
  induction a with
  | nil => rfl
  | cons x a ih =>
    rw [List.cons_append, findRow_cons, findRow_cons, ih]
    split <;> rfl

theorem findRow_not {i : Nat} {l : List (Int × α)} (h : ∀ e ∈ l, e.1.toNat ≠ i) : findRow i l = none := by
  unfold findRow
  rw [Option.map_eq_none_iff, List.find?_eq_none]
  intro e he
  simpa using h e he

theorem findRow_shift (i off : Nat) {l : List (Int × α)} (h : ∀ e ∈ l, 0 ≤ e.1) (hi : off ≤ i) :
    findRow i (shift off l) = findRow (i - off) l := by
  induction l with
  | nil => rfl
  | cons x l ih =>
    have h0 := h x (by simp)
    have e : shift off (x :: l) = ((off : Int) + x.1, x.2) :: shift off l := rfl
    rw [e, findRow_cons, findRow_cons, ih fun e he => h e (List.mem_cons_of_mem _ he)]
    by_cases hx : x.1.toNat = i - off
    · rw [if_pos hx, if_pos (by dsimp only; omega)]
    · rw [if_neg hx, if_neg (by dsimp only; omega)]

theorem col_rows {S : CSC α} {m p : Nat} (h : S.Is m p) {j : Nat} (hj : j < p) : ∀ e ∈ S.col j, 0 ≤ e.1 ∧ e.1 < m := by
  obtain ⟨hv, hm, hn⟩ := h
  intro x hx
  simp only [CSC.col, List.mem_map, List.mem_range] at hx
  obtain ⟨k, hk, rfl⟩ := hx
  rw [← hm]
  exact hv.rows _ (hv.lt_nnz (j := j) (by omega) (by omega))

theorem trim_entry {S : CSC α} {m p : Nat} (h : S.Is m p) (i : Nat) {j : Nat} (hj : j < p) : S.trim.entry i j = S.entry i j := by
  rw [entry_col, entry_col, trim_col h.1 (by rw [h.2.2]; exact hj)]

theorem symCol_entry {k : Nat} (V : Nat → Nat → α) {i j : Nat} (hi : i < k) (hj : j < k) :
    (cscOf k k (symCol k V)).entry i j = if isZero (V i j) then none else some (V i j) := by
  rw [entry_col, cscOf_col _ _ _ hj]
  have key : ∀ p, findRow i ((List.range p).flatMap fun i => if !isZero (V i j) then [((i : Int), V i j)] else []) =
      if i < p then (if isZero (V i j) then none else some (V i j)) else none := by
    intro p
    induction p with
    | zero => rfl
    | succ p ih =>
      rw [List.range_succ, List.flatMap_append, findRow_append, ih]
      by_cases h1 : i < p
      · rw [if_pos h1, if_pos (show i < p + 1 by omega)]
        have h2 : findRow i (List.flatMap (fun i => if !isZero (V i j) then [((i : Int), V i j)] else []) [p]) = none := by
          refine findRow_not fun e he => ?_
          simp only [List.flatMap_cons, List.flatMap_nil, List.append_nil] at he
          split at he
          · simp only [List.mem_singleton] at he
            rw [he]
            dsimp only
            omega
          · simp at he
        rw [h2]
        cases (if isZero (V i j) then none else some (V i j)) <;> rfl
      · rw [if_neg h1]
        by_cases h2 : i = p
        · subst h2
          rw [if_pos (by omega)]
          by_cases h3 : isZero (V i j) <;> simp [h3, findRow]
        · rw [if_neg (by omega)]
          show findRow i (List.flatMap (fun i => if !isZero (V i j) then [((i : Int), V i j)] else []) [p]) = none
          refine findRow_not fun e he => ?_
          simp only [List.flatMap_cons, List.flatMap_nil, List.append_nil] at he
          split at he
          · simp only [List.mem_singleton] at he
            rw [he]
            dsimp only
            omega
          · simp at he
  rw [symCol, key, if_pos hi]

/-- sorted columns of the stacked matrix -/
theorem stackCol_up {L R : CSC α} {A : Option (CSC α)} (hL : L.Is n.nComp n.nV) (sL : L.Sorted) (hR : R.Is n.nComp n.nV)
    (sR : R.Sorted) (hA : ∀ S, A = some S → S.Is n.nC n.nV ∧ S.Sorted) {j : Nat} (hj : j < n.nV) :
    (stackCol n L R A j).Pairwise fun a b => a.1 < b.1 := by
  have h1 : RowsUp (L.col j) := col_up hL.1 sL (by rw [hL.2.2]; exact hj)
  have h2 : RowsUp (R.col j) := col_up hR.1 sR (by rw [hR.2.2]; exact hj)
  have h3 : RowsUp (colOpt A j) ∧ ∀ e ∈ colOpt A j, e.1 < n.nC := by
    cases A with
    | none => exact ⟨⟨List.Pairwise.nil, by simp [colOpt]⟩, by simp [colOpt]⟩
    | some S =>
      obtain ⟨i, s⟩ := hA S rfl
      exact ⟨col_up i.1 s (by rw [i.2.2]; exact hj), fun e he => (col_rows i hj e he).2⟩
  have r1 := col_rows hL hj
  have r2 := col_rows hR hj
  unfold stackCol shift
  rw [List.pairwise_append, List.pairwise_append, List.pairwise_map, List.pairwise_map]
  refine ⟨⟨h3.1.1, h1.1.imp (by simp), ?_⟩, h2.1.imp (by simp), ?_⟩
  · intro a ha b hb
    obtain ⟨c, hc, rfl⟩ := List.mem_map.mp hb
    have := h3.2 a ha
    have := r1 c hc
    dsimp only
    omega
  · intro a ha b hb
    obtain ⟨c, hc, rfl⟩ := List.mem_map.mp hb
    have := r2 c hc
    dsimp only
    rcases List.mem_append.mp ha with ha | ha
    · have := h3.2 a ha
      push_cast
      omega
    · obtain ⟨c, hc, rfl⟩ := List.mem_map.mp ha
      have := r1 c hc
      push_cast
      omega

/-- entries of the stacked matrix -/
theorem stack_entry {L R : CSC α} {A : Option (CSC α)} (hL : L.Is n.nComp n.nV) (hR : R.Is n.nComp n.nV)
    (hA : ∀ S, A = some S → S.Is n.nC n.nV) (i : Nat) {j : Nat} (hj : j < n.nV) :
    (cscOf n.nA n.nV (stackCol n L R A)).entry i j =
      if i < n.nC then A.bind (fun S => S.entry i j)
      else if i < n.nC + n.nComp then L.entry (i - n.nC) j else R.entry (i - (n.nC + n.nComp)) j := by
  have r1 := col_rows hL hj
  have r2 := col_rows hR hj
  have hA1 : findRow i (colOpt A j) = A.bind fun S => S.entry i j := by
    cases A with
    | none => rfl
    | some S => exact (entry_col S i j).symm
  have hA2 : ¬ i < n.nC → findRow i (colOpt A j) = none := by
    intro h
    cases A with
    | none => rfl
    | some S =>
      refine findRow_not fun e he => ?_
      have := col_rows (hA S rfl) hj e he
      omega
  have hL2 : ¬ (n.nC ≤ i ∧ i < n.nC + n.nComp) → findRow i (shift n.nC (L.col j)) = none := by
    intro h
    refine findRow_not fun e he => ?_
    obtain ⟨c, hc, rfl⟩ := List.mem_map.mp he
    have := r1 c hc
    dsimp only
    omega
  have hR2 : i < n.nC + n.nComp → findRow i (shift (n.nC + n.nComp) (R.col j)) = none := by
    intro h
    refine findRow_not fun e he => ?_
    obtain ⟨c, hc, rfl⟩ := List.mem_map.mp he
    have := r2 c hc
    dsimp only
    push_cast
    omega
  rw [entry_col, cscOf_col _ _ _ hj, stackCol, findRow_append, findRow_append]
  by_cases h1 : i < n.nC
  · rw [if_pos h1, hL2 (by omega), hR2 (by omega), hA1]
    cases (A.bind fun S => S.entry i j) <;> rfl
  · rw [if_neg h1, hA2 h1]
    by_cases h2 : i < n.nC + n.nComp
    · rw [if_pos h2, hR2 h2, findRow_shift _ _ (fun e he => (r1 e he).1) (by omega), ← entry_col]
      cases (L.entry (i - n.nC) j) <;> rfl
    · rw [if_neg h2, hL2 (by omega), findRow_shift _ _ (fun e he => (r2 e he).1) (by omega), ← entry_col]
      rfl

/-- in sparse mode: constant and linear part of the penalty -/
theorem initPhi_sps {d d' : Data α} {L R : CSC α} {l r : List α} (h : initPhi d = .ok d') (hn : d.dims = some n)
    (hs : d.sparse = true) (hL : d.Ls = some L) (hR : d.Rs = some R) (hl : d.lbL = some l) (hr : d.lbR = some r)
    (iL : L.Is n.nComp n.nV) (iR : R.Is n.nComp n.nV) (ll : l.length = n.nComp) (lr : r.length = n.nComp) :
    d'.phiConst = facc zero n.nComp (fun k => gt l k *. gt r k) ∧
    d'.gPhi = some (tab n.nV fun j => -. (facc (facc zero (R.P (j + 1) - R.P j) fun k => gt l (R.I (R.P j + k)) *. gt R.x (R.P j + k))
      (L.P (j + 1) - L.P j) fun k => gt r (L.I (L.P j + k)) *. gt L.x (L.P j + k))) := by
  obtain ⟨vL, mL, nL⟩ := iL
  obtain ⟨vR, mR, nR⟩ := iR
  unfold initPhi at h
  rw [if_neg (by simp [hl])] at h
  simp only [hn, hl, hr, initd_some, deref_some, ok_bind, dotProd_ok (m := n.nComp) (a := l) (b := r) (by omega) (by omega),
    addTMulDS, hs, hL, hR, if_true] at h
  rw [addSpTMul_ok vR (by omega) (by simp [nR]), ok_bind, addSpTMul_ok vL (by omega) (by simp [nL, nR]), ok_bind,
    loop_fill (fun j => -. (facc (facc zero (R.P (j + 1) - R.P j) fun k => gt l (R.I (R.P j + k)) *. gt R.x (R.P j + k))
      (L.P (j + 1) - L.P j) fun k => gt r (L.I (L.P j + k)) *. gt L.x (L.P j + k))) _ _ _ (by simp [nL]), ok_bind] at h
  · injection h with h
    subst h
    exact ⟨rfl, rfl⟩
  · intro i hi
    rw [rd_ok (by simp; omega), ok_bind, wr_ok (by simp; omega), gt_pre _ _ _ (by simp; omega), if_neg (by omega),
      gt_tab _ (by omega), gt_tab _ (by omega), show gt (List.replicate n.nV (zero : α)) i = zero by simp [gt, hi]]

end

/-! ## the loaded data -/

variable {α : Type} [Scalar α] {K : Type} [Field K] [LinearOrder K] [IsStrictOrderedRing K] {u t z : K}
  {n : Dims} {e : Env α} {o o1 : Obj α} {a : SparseArgs α} {d : Data α}

/-- a value taken for zero -/
theorem Apx.drop (F : RoundsZ α K u t z) {k : Nat} {b : α} {c m : K} (h : Apx F.toRounds k b c m) (h0 : isZero b = true) :
    ∃ w, |w| ≤ z ∧ Apx F.toRounds k Scalar.zero (c - w) m := by
  obtain ⟨x, hx, hz⟩ := F.small b h0
  have h1 := h.2 x hx
  rw [abs_sub_comm] at h1
  have hz0 : ∀ v : K, |v| ≤ m → |v| ≤ ((1 + u) ^ k - 1) * m → Apx F.toRounds k Scalar.zero v m := by
    intro v h2 h3
    refine ⟨h2, fun y hy => ?_⟩
    have hy : F.val Scalar.zero = some y := hy
    rw [F.zero] at hy
    injection hy with hy
    rw [← hy, zero_sub, abs_neg]
    exact h3
  by_cases h2 : |c - x| ≤ m
  · exact ⟨x, hz, hz0 _ h2 h1⟩
  · refine ⟨0, by rw [abs_zero]; exact F.z0, ?_⟩
    rw [sub_zero]
    have := h.1
    exact hz0 _ h.1 (by linarith)

/-- one of the two products in an entry of `L'R + R'L` -/
theorem colDot_apx {F : Rounds α K u t} {X Y : CSC α} {m p : Nat} {B D : Matrix (Fin m) (Fin p) K}
    (hX : AMatS F 0 X m p B fun i j => |B i j|) (hY : AMatS F 0 Y m p D fun i j => |D i j|) (i j : Fin p) {q : Nat} (hq : 1 ≤ q)
    {b : α} {v l : K} (h0 : Apx F q b v l) :
    ∃ c, colDot X Y i j b = .ok c ∧ Apx F (q + m) c (v + ∑ k, B k i * D k j) (l + ∑ k, (|B k i| * |D k j| + t)) := by
  refine ⟨_, colDot_ofacc hX.is hY.is hY.sorted i.2 j.2 b, ?_⟩
  refine col_apx hX.is hX.sorted i.2 h0 (g := fun k => B k i * D k j) (h := fun k => |B k i| * |D k j| + t) (fun c hc => ?_)
    (fun k hk => (hX.miss hk).zero_mul (le_refl _) (by omega))
  have hx := hX.at hc
  have hy := hY.ap ⟨X.I (X.P i + c), hX.is.I_lt i.2 hc⟩ j
  dsimp only at hy
  cases hE : Y.entry (X.I (X.P i + c)) j with
  | none =>
    rw [hE] at hy
    refine (Apx.zero_mul (x := B ⟨X.I (X.P i + c), hX.is.I_lt i.2 hc⟩ i) hy (le_refl _) (i := q) (by omega)).congr ?_ ?_
    · rw [mul_comm]
    · rw [mul_comm]
  | some w =>
    rw [hE] at hy
    exact hx.mul' hy (by omega)

/-- the data with which the main loop runs -/
theorem load_apxS (F : RoundsZ α K u t z) (hb : Built o n) (hix : o.s.idxC = [])
    (hl0 : o.d.lbL = none ∧ o.d.lbR = none ∧ o.d.gPhi = none ∧ o.d.phiConst = zero) (hf : a.Fits n) (hso : a.Sorted)
    (hp : a.lbL = none ↔ a.lbR = none) (h : loadSparse e o a = .ok (.successfulReturn, o1)) {i : RV × Obj α}
    (hi : initializeSolver e o1 = .ok i) (hi1 : i.1 = .successfulReturn) :
    ∃ D : Matrix (Fin n.nV) (Fin n.nV) K, (∀ i j, |D i j| ≤ z) ∧ DataS F.toRounds i.2.d (F.probS n a) D := by
  obtain ⟨hR, _, hsp⟩ := hb.loadSparse hix hf hp h
  obtain ⟨Q, L, R, C, hQ, hL, hRR, iQ, iL, iR, hCs, hCi, h'⟩ := loadSparse_ok (e := e) hb.dims hb.nV hb.nComp hf
  rcases h' with ⟨_, _, h'⟩ | ⟨_, _, _, h'⟩ | ⟨_, _, _, _, h'⟩ | ⟨_, _, g, c, hg, lg, hc, h'⟩
  · rw [h'] at h; injection h with h; injection h with h _; cases h
  · rw [h'] at h; injection h with h; injection h with h _; cases h
  · rw [h'] at h; injection h with h; injection h with h _; cases h
  rw [h'] at h
  injection h with h
  injection h with _ h
  subst h
  obtain ⟨nd, bo, l, u', sub, y, w, gt', pc, gp, hshape⟩ := initializeSolver_ok hi hi1
  obtain ⟨_, hbox, d0, d', hphi, e1, e2, _, _, e5, e6, e7, e8, e9, e10, e3, e4⟩ := init_more hR hi hi1
  -- the matrices
  have aM : ∀ {S : CSC α} {m p : Nat} (hS : S.Is m p) (sS : S.Sorted),
      AMatS F.toRounds 0 S.trim m p (F.den m p (some S)) fun i j => |F.den m p (some S) i j| := by
    intro S m p hS sS
    refine ⟨hS.trim, CSC.Sorted.trim hS.1 sS, fun i j => ?_⟩
    rw [trim_entry hS i j.2]
    have : F.den m p (some S) i j = F.v ((S.entry i j).getD zero) := by
      show F.vo _ = _
      cases S.entry i j with
      | none => simp [Rounds.vo, Rounds.v, F.zero]
      | some v => rfl
    rw [this]
    exact Apx.val F.toRounds _
  have aQ := aM iQ (hso.Q Q hQ)
  have aL := aM iL (hso.L L hL)
  have aR := aM iR (hso.R R hRR)
  have pQ : (F.probS n a).Q = F.den n.nV n.nV (some Q) := by simp [Rounds.probS, hQ]
  have pL : (F.probS n a).L = F.den n.nComp n.nV (some L) := by simp [Rounds.probS, hL]
  have pR : (F.probS n a).R = F.den n.nComp n.nV (some R) := by simp [Rounds.probS, hRR]
  rw [← pQ] at aQ
  rw [← pL] at aL
  rw [← pR] at aR
  -- the products
  obtain ⟨V, hV, hC2⟩ := symProdSparse_total (n := n) iL.trim iR.trim
  rw [hCs] at hC2
  injection hC2 with hC2
  subst hc
  have hcV : c = cscOf n.nV n.nV (symCol n.nV V) := by
    split at hC2
    · cases hC2
    · injection hC2
  have aV : ∀ i j : Fin n.nV, Apx F.toRounds (2 * n.nComp + 1) (V i j) ((F.probS n a).C i j) ((F.probS n a).magC t i j) := by
    intro i j
    obtain ⟨c1, k1, a1⟩ := colDot_apx aL aR i j (le_refl 1) ((Apx.zero F.toRounds).depth (Nat.zero_le 1))
    obtain ⟨c2, k2, a2⟩ := colDot_apx aR aL i j (by omega) a1
    have h1 := hV i i.2 j j.2
    rw [k1, ok_bind, k2] at h1
    injection h1 with h1
    rw [← h1]
    refine (a2.depth (by omega)).congr ?_ ?_
    · simp only [Prob.C, Matrix.add_apply, Matrix.mul_apply, Matrix.transpose_apply, zero_add]
    · simp only [Prob.magC, Finset.sum_add_distrib, zero_add]
  have hD : ∀ i j : Fin n.nV, ∃ w, |w| ≤ z ∧ Apx F.toRounds (2 * n.nComp + 1) ((c.entry i j).getD Scalar.zero)
      ((F.probS n a).C i j - w) ((F.probS n a).magC t i j) := by
    intro i j
    rw [hcV, symCol_entry V i.2 j.2]
    by_cases h0 : isZero (V i j) = true
    · rw [if_pos h0]
      exact (aV i j).drop F h0
    · rw [if_neg h0]
      refine ⟨0, by rw [abs_zero]; exact F.z0, ?_⟩
      rw [sub_zero]
      exact aV i j
  choose D hD1 hD2 using hD
  have hlow : Apx F.toRounds (n.nComp + 1) i.2.d.phiConst ((F.probS n a).lbL ⬝ᵥ (F.probS n a).lbR)
        (∑ k, (|(F.probS n a).lbL k| * |(F.probS n a).lbR k| + t)) ∧
      ((i.2.d.gPhi = none ∧ (F.probS n a).gPhi = 0) ∨
        AVec F.toRounds (2 * n.nComp + 1) i.2.d.gPhi n.nV (F.probS n a).gPhi ((F.probS n a).magG t)) := by
    rw [e9, e10]
    cases hl : a.lbL with
    | none =>
      have hr := hp.mp hl
      have e5' : d0.lbL = none := by rw [e5]; simp [sparseObj, bndMem, hl, hl0.1]
      have e6' : d0.lbR = none := by rw [e6]; simp [sparseObj, bndMem, hr, hl0.2.1]
      have p1 : (F.probS n a).lbL = 0 := by simp only [Rounds.probS, hl]; exact vec_none F.toRounds _
      have p2 : (F.probS n a).lbR = 0 := by simp only [Rounds.probS, hr]; exact vec_none F.toRounds _
      unfold initPhi at hphi
      rw [if_pos ⟨e5', e6'⟩] at hphi
      injection hphi with hphi
      subst hphi
      refine ⟨?_, Or.inl ⟨by rw [e7]; exact hl0.2.2.1, ?_⟩⟩
      · rw [e8, p1, zero_dotProduct]
        have : (sparseObj o n a Q L R c g).d.phiConst = zero := hl0.2.2.2
        rw [this]
        refine (Apx.zero F.toRounds).mono (by omega) (Finset.sum_nonneg fun k _ => ?_)
        have := F.t0
        positivity
      · rw [Prob.gPhi, p1, p2, Matrix.mulVec_zero, Matrix.mulVec_zero, add_zero, neg_zero]
    | some l =>
      cases hr : a.lbR with
      | none => rw [hp.mpr hr] at hl; cases hl
      | some r =>
        have e5' : d0.lbL = some (l.take n.nComp) := by rw [e5]; simp [sparseObj, bndMem, hl]
        have e6' : d0.lbR = some (r.take n.nComp) := by rw [e6]; simp [sparseObj, bndMem, hr]
        obtain ⟨c1, c2⟩ := initPhi_sps (n := n) hphi (by rw [e1]; exact hb.dims) (by rw [e2]; rfl) (by rw [e3]; rfl)
          (by rw [e4]; rfl) e5' e6' aL.is aR.is (by simpa using hf.lbL l hl) (by simpa using hf.lbR r hr)
        have al : ∀ k : Fin n.nComp, Apx F.toRounds 0 (gt (l.take n.nComp) k) ((F.probS n a).lbL k) |(F.probS n a).lbL k| := by
          intro k
          rw [gt_take k.2]
          have : (F.probS n a).lbL k = F.v (gt l k) := by simp [Rounds.probS, Rounds.vec, hl, gt]
          rw [this]
          exact Apx.val F.toRounds _
        have ar : ∀ k : Fin n.nComp, Apx F.toRounds 0 (gt (r.take n.nComp) k) ((F.probS n a).lbR k) |(F.probS n a).lbR k| := by
          intro k
          rw [gt_take k.2]
          have : (F.probS n a).lbR k = F.v (gt r k) := by simp [Rounds.probS, Rounds.vec, hr, gt]
          rw [this]
          exact Apx.val F.toRounds _
        refine ⟨?_, Or.inr ⟨_, c2, by simp, fun i => ?_⟩⟩
        · rw [c1]
          exact (Apx.sum (f := fun k => gt (l.take n.nComp) k *. gt (r.take n.nComp) k)
            fun k => (al k).mul (ar k)).depth (by omega)
        · rw [gt_tab _ i.2]
          have h1 := aR.addTMul al i ((Apx.zero F.toRounds).depth (Nat.zero_le 1)) (by omega)
          have h2 := aL.addTMul ar i h1 (by omega)
          refine (h2.neg.depth (by omega)).congr ?_ ?_
          · rw [zero_add]; rfl
          · rw [zero_add]; rfl
  have hA : ∀ S, a.A = some S → S.Is n.nC n.nV ∧ S.Sorted := fun S hS => ⟨hf.A S hS, hso.A S hS⟩
  refine ⟨D, hD1, by rw [hshape]; exact hb.dims, by rw [hshape]; rfl, ?_, ?_, ?_, ?_, ?_, ?_, hlow.1, hlow.2⟩
  · exact ⟨_, by rw [hshape]; rfl, aQ⟩
  · refine ⟨_, by rw [hshape]; rfl, stackSparse_is iL.trim iR.trim hf.A, cscOf_sorted _ _ _ fun j hj =>
      stackCol_up aL.is aL.sorted aR.is aR.sorted hA hj, fun i j => ?_⟩
    rw [stack_entry aL.is aR.is hf.A i j.2]
    by_cases h1 : i.1 < n.nC
    · have e : (F.probS n a).AA i j = (F.probS n a).A ⟨i, h1⟩ j := by simp only [Prob.AA, stackRows, dif_pos h1]
      rw [if_pos h1, e]
      have : (F.probS n a).A ⟨i, h1⟩ j = F.v ((a.A.bind fun S => S.entry i j).getD zero) := by
        show F.den n.nC n.nV a.A ⟨i, h1⟩ j = _
        cases a.A with
        | none => simp [Rounds.den, Rounds.v, F.zero]
        | some S =>
          show F.vo (S.entry i j) = F.v ((S.entry i j).getD zero)
          cases S.entry i j with
          | none => simp [Rounds.vo, Rounds.v, F.zero]
          | some v => rfl
      rw [this]
      exact Apx.val F.toRounds _
    · by_cases h2 : i.1 < n.nC + n.nComp
      · have e : (F.probS n a).AA i j = (F.probS n a).L ⟨i - n.nC, by omega⟩ j := by
          simp only [Prob.AA, stackRows, dif_neg h1, dif_pos h2]
        rw [if_neg h1, if_pos h2, e]
        exact aL.ap ⟨i - n.nC, by omega⟩ j
      · have hi := i.2
        simp only [Dims.nA] at hi
        have e : (F.probS n a).AA i j = (F.probS n a).R ⟨i - (n.nC + n.nComp), by omega⟩ j := by
          simp only [Prob.AA, stackRows, dif_neg h1, dif_neg h2]
        rw [if_neg h1, if_neg h2, e]
        exact aR.ap ⟨i - (n.nC + n.nComp), by omega⟩ j
  · exact ⟨_, by rw [hshape]; rfl, aL⟩
  · exact ⟨_, by rw [hshape]; rfl, aR⟩
  · obtain ⟨k1, k2⟩ := hCi c rfl
    exact ⟨_, by rw [hshape]; rfl, k1, k2, hD2⟩
  · refine ⟨g.take n.nV, by rw [hshape]; rfl, by simpa using lg, fun i => ?_⟩
    beta_reduce
    rw [gt_take i.2]
    have : (F.probS n a).g i = F.v (gt g i) := by simp [Rounds.probS, Rounds.vec, hg, gt]
    rw [this]
    exact Apx.val F.toRounds _

end LCQ
