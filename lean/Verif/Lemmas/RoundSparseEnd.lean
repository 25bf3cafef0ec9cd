import Verif.Lemmas.RoundSparse
import Verif.Lemmas.RoundCert

/-!
# Rounding errors at the end of a run in sparse mode
-/

set_option linter.unusedSectionVars false

namespace LCQ
open Scalar
open scoped Matrix

/-! ## the merged matrix -/

section
variable {α : Type} [Scalar α]

theorem mergeL_up (v : Ent α → α) (a b : List (Int × α)) (ha : RowsUp a) (hb : RowsUp b) :
    ((mergeL a b).map (Ent.pair v)).Pairwise fun x y => x.1 < y.1 := by
  have step : ∀ (r : Int) (a b : List (Int × α)), (∀ x ∈ a, r < x.1) → (∀ x ∈ b, r < x.1) →
      ∀ y ∈ (mergeL a b).map (Ent.pair v), r < y.1 := by
    intro r a b h1 h2 y hy
    obtain ⟨e, he, rfl⟩ := List.mem_map.mp hy
    rcases mergeL_row a b e he with ⟨x, hx, hxe⟩ | ⟨x, hx, hxe⟩
    · have := h1 x hx
      show r < e.row
      omega
    · have := h2 x hx
      show r < e.row
      omega
  induction a, b using mergeL.induct with
  | case1 => simp [mergeL]
  | case2 q qs ih =>
    rw [mergeL, List.map_cons, List.pairwise_cons]
    exact ⟨step _ _ _ (List.pairwise_cons.mp ha.1).1 (by simp), ih ha.tail hb⟩
  | case3 c cs ih =>
    rw [mergeL, List.map_cons, List.pairwise_cons]
    exact ⟨step _ _ _ (by simp) (List.pairwise_cons.mp hb.1).1, ih ha hb.tail⟩
  | case4 q qs c cs hlt ih =>
    rw [mergeL, if_pos hlt, List.map_cons, List.pairwise_cons]
    refine ⟨step _ _ _ (List.pairwise_cons.mp ha.1).1 ?_, ih ha.tail hb⟩
    intro x hx
    rcases List.mem_cons.mp hx with rfl | hx
    · exact hlt
    · have := (List.pairwise_cons.mp hb.1).1 x hx
      show q.1 < x.1
      omega
  | case5 q qs c cs h1 hlt ih =>
    rw [mergeL, if_neg h1, if_pos hlt, List.map_cons, List.pairwise_cons]
    refine ⟨step _ _ _ ?_ (List.pairwise_cons.mp hb.1).1, ih ha hb.tail⟩
    intro x hx
    rcases List.mem_cons.mp hx with rfl | hx
    · exact hlt
    · have := (List.pairwise_cons.mp ha.1).1 x hx
      show c.1 < x.1
      omega
  | case6 q qs c cs h1 h2 ih =>
    rw [mergeL, if_neg h1, if_neg h2, List.map_cons, List.pairwise_cons]
    have he : c.1 = q.1 := by omega
    refine ⟨step _ _ _ ?_ ?_, ih ha.tail hb.tail⟩
    · intro x hx
      have := (List.pairwise_cons.mp ha.1).1 x hx
      simp only [Ent.pair]
      omega
    · intro x hx
      have := (List.pairwise_cons.mp hb.1).1 x hx
      simp only [Ent.pair]
      omega

theorem mcsc_sorted {Q C : CSC α} {n : Nat} (hQ : Q.Valid) (sQ : Q.Sorted) (hC : C.Valid) (sC : C.Sorted) (nQ : Q.n = n)
    (nC : C.n = n) (v : Ent α → α) : (mcsc Q C n v).Sorted := by
  refine cscOf_sorted _ _ _ fun c hc => ?_
  rw [mcol]
  exact mergeL_up v _ _ (col_up hQ sQ (by omega)) (col_up hC sC (by omega))

theorem hessEntry_none (rho : Nat → α) (f : α) (q : Option α) (k : Nat) : hessEntry rho f q none k = q := by
  induction k with
  | zero => cases q <;> rfl
  | succ k ih => simpa [hessEntry] using ih

theorem hessEntry_isSome (rho : Nat → α) (f : α) (q : Option α) (c : α) (k : Nat) :
    ∃ v, hessEntry rho f q (some c) k = some v := by
  induction k with
  | zero => cases q <;> exact ⟨_, rfl⟩
  | succ k ih =>
    obtain ⟨w, hw⟩ := ih
    exact ⟨_, by simp only [hessEntry, hw, Option.map_some]; rfl⟩

end

/-! ## entries of the penalised Hessian -/

section
variable {α : Type} [Scalar α] {K : Type} [Field K] [LinearOrder K] [IsStrictOrderedRing K] {u t : K}

/-- what one update adds -/
theorem Apx.step' (F : RoundsDiv α K u t) {f : α} {φ : K} (hf : F.val f = some φ) (h0 : φ ≠ 0) (r : α) {c : α} {dc : Nat}
    {cv cm : K} (hc : Apx F.toRounds dc c cv cm) :
    Apx F.toRounds (dc + 4) ((r *. (Scalar.one -. Scalar.one /. f)) *. c) (F.v r * (1 - 1 / φ) * cv)
      ((|F.v r| * (1 + 1 / |φ| + t) + t) * cm + t) := by
  have h1 := ((Apx.one F.toRounds).depth (Nat.zero_le 1)).sub (Apx.div1 F hf h0)
  have h2 := ((Apx.val F.toRounds r).mul' h1 (i := 3) (by omega)).mul' hc (i := dc + 4) (by omega)
  exact h2.congr rfl (by rw [add_assoc])

theorem hess_some (F : RoundsDiv α K u t) {f : α} {φ : K} (hf : F.val f = some φ) (h0 : φ ≠ 0) (rho : Nat → α) {q : Option α}
    {c : α} {dc : Nat} {qv cv cm : K} (hq : Apx F.toRounds 0 (q.getD Scalar.zero) qv |qv|) (hc : Apx F.toRounds dc c cv cm)
    (k : Nat) (v : α) (hv : hessEntry rho f q (some c) k = some v) :
    Apx F.toRounds (k + dc + 4) v (hessSum φ (fun j => F.v (rho j)) qv cv k)
      (|qv| + (|F.v (rho 0)| * cm + t) + ∑ j ∈ Finset.range k, ((|F.v (rho (j + 1))| * (1 + 1 / |φ| + t) + t) * cm + t)) := by
  induction k generalizing v with
  | zero =>
    simp only [hessSum, Finset.range_zero, Finset.sum_empty, add_zero]
    have h1 := (Apx.val F.toRounds (rho 0)).mul' hc (i := dc + 1) (by omega)
    cases q with
    | none =>
      injection hv with hv
      subst hv
      refine ((h1.depth (j := 0 + dc + 4) (by omega)).skip (hq.depth (Nat.zero_le _))).congr ?_ ?_ <;> ring
    | some q =>
      injection hv with hv
      subst hv
      exact hq.add' h1 (by omega)
  | succ k ih =>
    rw [Finset.sum_range_succ]
    simp only [hessEntry, Option.map_eq_some_iff] at hv
    obtain ⟨w, hw, rfl⟩ := hv
    refine ((ih w hw).add' ((Apx.step' F hf h0 (rho (k + 1)) hc).depth (j := k + dc + 4) (by omega)) (i := k + 1 + dc + 4)
      (by omega)).congr ?_ ?_
    · simp only [hessSum, Finset.sum_range_succ]; ring
    · ring

theorem magHess_ge (ht : 0 ≤ t) {φ : K} (r : Nat → K) (q : K) {c : K} (hc : 0 ≤ c) (k : Nat) :
    |q| + (c * |r k| + t) ≤ magHess t φ r q c k := by
  have hp : 0 ≤ 1 / |φ| := by positivity
  have hp' : 0 ≤ t / |φ| := by positivity
  unfold magHess
  rw [abs_of_nonneg hc, add_assoc |q|]
  have hterm : ∀ j, |r (j + 1)| * c ≤ (|r (j + 1)| * (1 + 1 / |φ| + t) + t) * c + t + (|r j| + t / |φ|) * c := by
    intro j
    have h1 := abs_nonneg (r (j + 1))
    have h2 := abs_nonneg (r j)
    have e1 : 0 ≤ |r (j + 1)| * (1 / |φ| + t) * c := by positivity
    have e2 : 0 ≤ t * c := by positivity
    have e3 : 0 ≤ (|r j| + t / |φ|) * c := by positivity
    nlinarith
  have h0 : ∀ j, 0 ≤ (|r (j + 1)| * (1 + 1 / |φ| + t) + t) * c + t + (|r j| + t / |φ|) * c := fun j =>
    (mul_nonneg (abs_nonneg _) hc).trans (hterm j)
  cases k with
  | zero =>
    simp only [Finset.range_zero, Finset.sum_empty, add_zero]
    rw [mul_comm c]
  | succ k =>
    rw [Finset.sum_range_succ]
    have h1 := hterm k
    have h2 : 0 ≤ ∑ j ∈ Finset.range k, ((|r (j + 1)| * (1 + 1 / |φ| + t) + t) * c + t + (|r j| + t / |φ|) * c) :=
      Finset.sum_nonneg fun j _ => h0 j
    have h3 : 0 ≤ |r 0| * c := mul_nonneg (abs_nonneg _) hc
    rw [mul_comm c]
    linarith

/-- an entry of the penalised Hessian, stored or not -/
theorem hess_all (F : RoundsDiv α K u t) {f : α} {φ : K} (hf : F.val f = some φ) (h0 : φ ≠ 0) {rho : Nat → α}
    (hr : ∀ j, rho (j + 1) = rho j *. f) {q c : Option α} {dc : Nat} {qv cv cm : K}
    (hq : Apx F.toRounds 0 (q.getD Scalar.zero) qv |qv|) (hc : Apx F.toRounds dc (c.getD Scalar.zero) cv cm) (k : Nat) :
    Apx F.toRounds (k + dc + 4) ((hessEntry rho f q c k).getD Scalar.zero) (qv + F.v (rho k) * cv)
      (magHess t φ (fun j => F.v (rho j)) qv cm k) := by
  have ht := F.t0
  have hu := F.u0
  have hcm := hc.m0
  cases c with
  | none =>
    rw [hessEntry_none]
    have h1 := (hq.depth (Nat.zero_le dc)).skip ((show Apx F.toRounds dc Scalar.zero cv cm from hc).zero_mul
      (le_refl |F.v (rho k)|) (i := dc) (le_refl _))
    refine ((h1.mono (j := k + dc + 4) (by omega) (magHess_ge ht (φ := φ) (fun j => F.v (rho j)) qv hcm k))).congr ?_ rfl
    rw [mul_comm cv]
  | some c =>
    have hc : Apx F.toRounds dc c cv cm := hc
    obtain ⟨v, hv⟩ := hessEntry_isSome rho f q c k
    rw [hv]
    have h1 := hess_some F hf h0 rho hq hc k v hv
    have hge := magHess_ge ht (φ := φ) (fun j => F.v (rho j)) qv hcm k
    have hval : |qv + F.v (rho k) * cv| ≤ magHess t φ (fun j => F.v (rho j)) qv cm k := by
      refine (abs_add_le _ _).trans ?_
      rw [abs_mul]
      have := mul_le_mul_of_nonneg_left hc.1 (abs_nonneg (F.v (rho k)))
      have e := mul_comm |F.v (rho k)| cm
      linarith
    refine ⟨hval, fun x hx => ?_⟩
    have hx : F.val v = some x := hx
    have h2 := h1.2 x hx
    have hfin : ∃ x, F.val (rho k) = some x := by
      cases k with
      | zero =>
        cases q with
        | none =>
          injection hv with hv
          subst hv
          obtain ⟨x, _, hx, _⟩ := F.mul _ _ _ hx
          exact ⟨x, hx⟩
        | some q =>
          injection hv with hv
          subst hv
          obtain ⟨_, y, _, hy, _⟩ := F.add _ _ _ hx
          obtain ⟨x, _, hx, _⟩ := F.mul _ _ _ hy
          exact ⟨x, hx⟩
      | succ k =>
        simp only [hessEntry, Option.map_eq_some_iff] at hv
        obtain ⟨_, _, rfl⟩ := hv
        obtain ⟨_, y, _, hy, _⟩ := F.add _ _ _ hx
        obtain ⟨x, _, hx, _⟩ := F.mul _ _ _ hy
        obtain ⟨x, _, hx, _⟩ := F.mul _ _ _ hx
        exact ⟨x, hx⟩
    obtain ⟨rk, hrk⟩ := hfin
    have h3 := hessSum_rho F hf h0 hr qv cv k (rho_fin F hr hrk)
    have hp' : 0 ≤ t / |φ| := by positivity
    have h4 : u * ∑ j ∈ Finset.range k, (|F.v (rho j)| + t / |φ|) * |cv| ≤
        ((1 + u) ^ (k + dc + 4) - 1) * ∑ j ∈ Finset.range k, (|F.v (rho j)| + t / |φ|) * cm := by
      have h5 : 1 + u ≤ (1 + u) ^ (k + dc + 4) := le_self_pow₀ (by linarith) (by omega)
      refine mul_le_mul (by linarith) (Finset.sum_le_sum fun j _ => ?_) (Finset.sum_nonneg fun j _ => by positivity)
        (by linarith)
      exact mul_le_mul_of_nonneg_left hc.1 (by positivity)
    have h5 : |x - (qv + F.v (rho k) * cv)| ≤ |x - hessSum φ (fun j => F.v (rho j)) qv cv k| +
        |hessSum φ (fun j => F.v (rho j)) qv cv k - (qv + F.v (rho k) * cv)| := by
      rw [show x - (qv + F.v (rho k) * cv) = (x - hessSum φ (fun j => F.v (rho j)) qv cv k) +
        (hessSum φ (fun j => F.v (rho j)) qv cv k - (qv + F.v (rho k) * cv)) by ring]
      exact abs_add_le _ _
    have h6 : magHess t φ (fun j => F.v (rho j)) qv cm k = (|qv| + (|F.v (rho 0)| * cm + t) +
        ∑ j ∈ Finset.range k, ((|F.v (rho (j + 1))| * (1 + 1 / |φ| + t) + t) * cm + t)) +
        ∑ j ∈ Finset.range k, (|F.v (rho j)| + t / |φ|) * cm := by
      unfold magHess
      rw [abs_of_nonneg hcm, Finset.sum_add_distrib]
      ring
    rw [h6, mul_add]
    linarith

end

/-! ## the tests -/

section
variable {α : Type} [Scalar α] {d : Data α} {n : Dims} {off : Nat} {s s' : St α} {e : Env α} {o o' : Obj α}

/-- the part of the stationarity vector without the box constraints -/
def statS (n : Dims) (T A : CSC α) (x gT ya : List α) (i : Nat) : α :=
  one *. (one *. colSum T x i +. gt gT i) +.
    (-. one) *. facc zero (A.P (i + 1) - A.P i) fun k => gt ya (A.I (A.P i + k)) *. gt A.x (A.P i + k)

/-- in sparse mode: the stationarity vector -/
theorem updateStationarity_sps {x gT ya y : List α} {T A : CSC α} (hn : d.dims = some n) (hs : d.sparse = true)
    (hx : s.xk = some x) (hg : s.gTilde = some gT) (hq : s.Qks = some T) (hya : s.ykA = some ya) (hy : s.yk = some y)
    (hA : d.As = some A) (h1 : Has s.statk n.nV) (h2 : Has s.cstat n.nV) (h3 : Has s.bstat n.nV)
    (lx : x.length = n.nV) (lg : gT.length = n.nV) (iT : T.Is n.nV n.nV) (lya : ya.length = n.nA)
    (iA : A.Is n.nA n.nV) (h : updateStationarity d s = .ok s') :
    (d.lb = none → d.ub = none → s'.statk = some (tab n.nV (statS n T A x gT ya))) ∧
    (d.lb ≠ none → n.nV ≤ y.length → s'.statk = some (tab n.nV fun i => one *. statS n T A x gT ya i +. (-. one) *. gt y i)) := by
  obtain ⟨st, h1, l1⟩ := h1
  obtain ⟨c, h2, l2⟩ := h2
  obtain ⟨b, h3, l3⟩ := h3
  obtain ⟨vT, mT, nT⟩ := iT
  obtain ⟨vA, mA, nA'⟩ := iA
  have e1 : ∀ a : α, spAffine a T x gT st n.nV = .ok (tab n.nV fun j => a *. colSum T x j +. gt gT j) := by
    intro a
    have := spAffine_ok (alpha := a) vT (b := x) (c := gT) (d := st) (by omega) (by omega) (by omega)
    rwa [nT] at this
  have e2 : spTMul A ya c = .ok (tab n.nV fun j => facc zero (A.P (j + 1) - A.P j) fun k =>
      gt ya (A.I (A.P j + k)) *. gt A.x (A.P j + k)) := by
    have := spTMul_ok vA (b := ya) (c := c) (by omega) (by omega)
    rwa [nA'] at this
  simp only [updateStationarity, hn, hx, hg, h1, hya, h2, initd_some, deref_some, ok_bind, affineDS, tmulDS, hs, hq, hA,
    if_true, e1, e2] at h
  rw [weightedVecAdd_ok (by simp [Src.val]) (by simp [Src.val]) (by simp), ok_bind] at h
  constructor
  · intro hl hu
    simp only [boxStat, ne_eq, hl, hu, not_true_eq_false, or_self, if_false, ok_bind] at h
    injection h with h
    subst h
    dsimp only
    congr 1
    apply tab_congr
    intro i hi
    simp only [Src.val, gt_tab _ hi, statS]
  · intro hb ly
    simp only [boxStat, ne_eq, hb, not_false_eq_true, true_or, if_true, hy, h3, deref_some, ok_bind] at h
    rw [copy_loop_ok' ly l3, ok_bind, weightedVecAdd_ok (by simp [Src.val]) (by simp [Src.val]) (by simp), ok_bind] at h
    injection h with h
    subst h
    dsimp only
    congr 1
    apply tab_congr
    intro i hi
    simp only [Src.val, gt_tab _ hi, statS]

theorem getPhi_sps {x : List α} {C : CSC α} {v : α} (hn : d.dims = some n) (hs : d.sparse = true) (hx : s.xk = some x)
    (hC : d.Cs = some C) (lx : x.length = n.nV) (iC : C.Is n.nV n.nV) (lg : HasOpt d.gPhi n.nV)
    (h : getPhi d s = .ok v) :
    v = d.phiConst +. (match d.gPhi with
      | none => zero
      | some gp => zero +. facc zero n.nV (fun i => gt gp i *. gt x i)) +.
      (facc zero n.nV fun j => gt x j *. colSum C x j) /. two := by
  obtain ⟨vC, mC, nC'⟩ := iC
  have e1 : spQuadForm C x n.nV = .ok (facc zero n.nV fun j => gt x j *. colSum C x j) := by
    have := spQuadForm_ok vC (v := x) (by omega) (by omega)
    rwa [nC'] at this
  simp only [getPhi, hn, hx, initd_some, deref_some, ok_bind, quadDS, hs, hC, if_true, e1] at h
  rcases lg with hg | ⟨gp, hg, lg⟩
  · simp only [hg, phiLin, ok_bind] at h ⊢
    injection h with h
    exact h.symm
  · simp only [hg, phiLin, ok_bind, dotProd_ok (m := n.nV) (a := gp) (b := x) (by omega) (by omega)] at h ⊢
    injection h with h
    exact h.symm

end

variable {α : Type} [Scalar α] {K : Type} [Field K] [LinearOrder K] [IsStrictOrderedRing K] {u t : K}
  {F : Rounds α K u t} {n : Dims} {P : Prob K n} {D : Matrix (Fin n.nV) (Fin n.nV) K} {d : Data α} {s s' : St α} {e : Env α}
  {off : Nat}

/-- the matrix is in compressed-column form and its entries approximate a matrix -/
def SMat (F : Rounds α K u t) (k : Nat) (b : Option (CSC α)) (m p : Nat) (B l : Fin m → Fin p → K) : Prop :=
  ∃ S, b = some S ∧ AMatS F k S m p B l

/-- sparse data approximating a problem; `D` is the part of `C` which is not stored -/
structure DataS (F : Rounds α K u t) (d : Data α) (P : Prob K n) (D : Matrix (Fin n.nV) (Fin n.nV) K) : Prop where
  dims : d.dims = some n
  sparse : d.sparse = true
  Q : SMat F 0 d.Qs n.nV n.nV P.Q fun i j => |P.Q i j|
  A : SMat F 0 d.As n.nA n.nV P.AA fun i j => |P.AA i j|
  L : SMat F 0 d.Ls n.nComp n.nV P.L fun i j => |P.L i j|
  R : SMat F 0 d.Rs n.nComp n.nV P.R fun i j => |P.R i j|
  C : SMat F (2 * n.nComp + 1) d.Cs n.nV n.nV (P.C - D) (P.magC t)
  g : AVec F 0 d.g n.nV P.g fun i => |P.g i|
  phiConst : Apx F (n.nComp + 1) d.phiConst (P.lbL ⬝ᵥ P.lbR) (∑ k, (|P.lbL k| * |P.lbR k| + t))
  gPhi : (d.gPhi = none ∧ P.gPhi = 0) ∨ AVec F (2 * n.nComp + 1) d.gPhi n.nV P.gPhi (P.magG t)

theorem magC_symm (P : Prob K n) (i j : Fin n.nV) : P.magC t i j = P.magC t j i := by
  unfold Prob.magC
  refine Finset.sum_congr rfl fun k _ => ?_
  ring

/-- the complementarity value -/
theorem getPhi_apxS (hd : DataS F d P D) {x : List α} (hx : s.xk = some x) (lx : x.length = n.nV) {v : α}
    (h : getPhi d s = .ok v) :
    Apx F (2 * n.nV + 2 * n.nComp + 6) v (P.phi (F.vec n.nV x) - F.vec n.nV x ⬝ᵥ (Dᵀ *ᵥ F.vec n.nV x) / 2)
      (P.magPhi t (F.vec n.nV x)) := by
  obtain ⟨C, hC, aC⟩ := hd.C
  have ax : ∀ i : Fin n.nV, Apx F 0 (gt x i) (F.vec n.nV x i) |F.vec n.nV x i| := fun i => Apx.val F _
  have lg : HasOpt d.gPhi n.nV := by
    rcases hd.gPhi with ⟨h, _⟩ | ⟨c, h, l, _⟩
    · exact Or.inl h
    · exact Or.inr ⟨c, h, l⟩
  have hlin : Apx F (2 * n.nComp + n.nV + 3) (match d.gPhi with
      | none => Scalar.zero
      | some gp => Scalar.zero +. facc Scalar.zero n.nV (fun i => gt gp i *. gt x i)) (P.gPhi ⬝ᵥ F.vec n.nV x)
      (∑ j, (P.magG t j * |F.vec n.nV x j| + t)) := by
    rcases hd.gPhi with ⟨h, h0⟩ | ⟨c, h, l, a⟩
    · rw [h, h0, zero_dotProduct]
      refine (Apx.zero F).mono (by omega) (Finset.sum_nonneg fun k _ => ?_)
      have := F.t0
      have := magG_nonneg F P k
      positivity
    · rw [h]
      dsimp only
      exact ((Apx.zero F).add' (Apx.sum fun i => (a i).mul (ax i)) (by omega)).congr (by rw [zero_add]; rfl) (by rw [zero_add])
  rw [getPhi_sps hd.dims hd.sparse hx hC lx aC.is lg h, P.phi_eq]
  have hq : Apx F (2 * n.nComp + 2 * n.nV + 4) ((facc Scalar.zero n.nV fun j => gt x j *. colSum C x j) /. two)
      (F.vec n.nV x ⬝ᵥ (P.C *ᵥ F.vec n.nV x) / 2 - F.vec n.nV x ⬝ᵥ (Dᵀ *ᵥ F.vec n.nV x) / 2)
      ((∑ i, ((∑ j, (P.magC t i j * |F.vec n.nV x j| + t)) * |F.vec n.nV x i| + t)) / 2 + t) := by
    refine ((Apx.sum fun i => (ax i).mul (aC.colSum ax i)).half.depth (by omega)).congr ?_ ?_
    · rw [← sub_div, ← dotProduct_sub, ← Matrix.sub_mulVec]
      congr 1
      refine Finset.sum_congr rfl fun i _ => ?_
      congr 1
      refine Finset.sum_congr rfl fun j _ => ?_
      have hs : P.C j i = P.C i j := congrFun (congrFun P.C_symm i) j
      simp only [Matrix.sub_apply, Matrix.transpose_apply, hs]
    · congr 2
      refine Finset.sum_congr rfl fun i _ => ?_
      rw [mul_comm]
      congr 2
      refine Finset.sum_congr rfl fun j _ => ?_
      rw [magC_symm]
  refine ((hd.phiConst.add' hlin (le_refl _)).add' hq (by omega)).congr ?_ rfl
  ring

/-- the penalised Hessian -/
theorem qks_apx {F : RoundsDiv α K u t} (hd : DataS F.toRounds d P D) (hq : SparseQk d n s) {φ : K}
    (hf : F.val d.opts.factor = some φ) (h0 : φ ≠ 0) :
    ∃ k : Nat, s.outer = some (k : Int) ∧ s.rho = some (penalty d.opts k) ∧
      SMat F.toRounds (k + 2 * n.nComp + 5) s.Qks n.nV n.nV (P.Q + F.v (penalty d.opts k) • (P.C - D))
        fun i j => magHess t φ (fun l => F.v (penalty d.opts l)) (P.Q i j) (P.magC t i j) k := by
  obtain ⟨Q, hQ, aQ⟩ := hd.Q
  obtain ⟨C, hC, aC⟩ := hd.C
  obtain ⟨Q', C', k, hQ', hC', ho, hr, hqk, _⟩ := hq
  rw [hQ] at hQ'
  rw [hC] at hC'
  injection hQ' with hQ'
  injection hC' with hC'
  subst hQ' hC'
  obtain ⟨vQ, mQ, nQ⟩ := aQ.is
  obtain ⟨vC, mC, nC'⟩ := aC.is
  refine ⟨k, ho, hr, _, hqk, ⟨mcsc_valid _ _ vQ vC _ _ mQ nQ mC nC', rfl, rfl⟩,
    mcsc_sorted vQ aQ.sorted vC aC.sorted nQ nC' _, fun i j => ?_⟩
  rw [mcsc_entry vQ aQ.sorted vC aC.sorted nQ nC' _ i j.2, valAt_entry]
  exact (hess_all F hf h0 (fun _ => rfl) (aQ.ap i j) (aC.ap i j) k).depth (by omega)

theorem flip_C (P : Prob K n) : P.flip.C = P.C := rfl

theorem flip_AA (P : Prob K n) : P.flip.AA = P.AA := rfl

theorem flip_gT (P : Prob K n) (b : Bool) (r : K) : P.flip.gT b r = P.gT b r := rfl

/-- the stationarity vector -/
theorem stat_apxS {F : RoundsDiv α K u t} (hd : DataS F.toRounds d P D) (hs : Head d n off s) (hq : SparseQk d n s)
    (hbox : (off = n.nV ∧ d.lb ≠ none) ∨ (off = 0 ∧ d.lb = none ∧ d.ub = none)) {φ : K} (hf : F.val d.opts.factor = some φ)
    (h0 : φ ≠ 0) {x y : List α} (hx : s.xk = some x) (hy : s.yk = some y) (h : updateStationarity d s = .ok s') :
    ∃ (k : Nat) (b : Bool), s.outer = some (k : Int) ∧ s.rho = some (penalty d.opts k) ∧
      (b = false → s.outer = some 0 ∨ P.gPhi = 0) ∧ (s.outer = some 0 → b = false) ∧
      AVec F.toRounds (k + n.nV + n.nC + 2 * n.nComp + 12) s'.statk n.nV
        (P.flip.penResidual (F.v (penalty d.opts k)) (F.vec n.nV x) (F.vec (off + n.nA) y) -
          F.v (penalty d.opts k) • (Dᵀ *ᵥ F.vec n.nV x) - if b then 0 else F.v (penalty d.opts k) • P.gPhi)
        (P.flip.magStatS t φ (fun l => F.v (penalty d.opts l)) k (F.vec n.nV x) (F.vec (off + n.nA) y)) := by
  obtain ⟨k, hk, hr, T, hT, aT⟩ := qks_apx hd hq hf h0
  obtain ⟨b, hb1, hb2, gT, hg, lg, ag⟩ := gT_apx' hd.g hd.gPhi hs.gt hr
  obtain ⟨A, hA, aA⟩ := hd.A
  obtain ⟨y', hy', ly, hya⟩ := hs.y
  rw [hy] at hy'
  injection hy' with hy'
  subst hy'
  have lx : x.length = n.nV := by
    obtain ⟨x', h', l⟩ := hs.xk
    rw [hx] at h'
    injection h' with h'
    rw [h']; exact l
  obtain ⟨u1, u2⟩ := updateStationarity_sps hd.dims hd.sparse hx hg hT hya hy hA hs.statk hs.cstat hs.bstat lx lg aT.is (by simp)
    aA.is h
  have ax : ∀ j : Fin n.nV, Apx F.toRounds 0 (gt x j) (F.vec n.nV x j) |F.vec n.nV x j| := fun i => Apx.val F.toRounds _
  have ay : ∀ k : Fin n.nA, Apx F.toRounds 0 (gt (tab n.nA fun k => gt y (off + k)) k) (yLin (F.vec (off + n.nA) y) k)
      |yLin (F.vec (off + n.nA) y) k| := by
    intro k
    rw [gt_tab _ k.2]
    exact Apx.val F.toRounds _
  have ht := F.t0
  have hA' : n.nA = n.nC + 2 * n.nComp := rfl
  -- without the box constraints
  have main : ∀ i : Fin n.nV, Apx F.toRounds (k + n.nV + n.nC + 2 * n.nComp + 10)
      (statS n T A x gT (tab n.nA fun k => gt y (off + k)) i)
      ((P.flip.penResidual (F.v (penalty d.opts k)) (F.vec n.nV x) (F.vec (off + n.nA) y) -
          F.v (penalty d.opts k) • (Dᵀ *ᵥ F.vec n.nV x) - if b then 0 else F.v (penalty d.opts k) • P.gPhi) i +
        yBox (F.vec (off + n.nA) y) i)
      (P.flip.magStatS t φ (fun l => F.v (penalty d.opts l)) k (F.vec n.nV x) (F.vec (off + n.nA) y) i -
        |yBox (F.vec (off + n.nA) y) i| - 2 * t) := by
    intro i
    have h1 := (aT.colSum ax i).one_mul
    have h2 := (h1.add' (ag i) (i := k + n.nV + 2 * n.nComp + 8) (by omega)).one_mul
    have h3 := (aA.addTMul ay i ((Apx.zero F.toRounds).depth (Nat.zero_le 1)) (by omega)).neg_one_mul
    refine (h2.add' h3 (i := k + n.nV + n.nC + 2 * n.nComp + 10) (by omega)).congr ?_ ?_
    · have e1 := congrFun (stat_eq (P := P.flip) (F.v (penalty d.opts k)) b (F.vec n.nV x) (F.vec (off + n.nA) y) (sp := false)
        (by simp)) i
      have e2 : (if b then 0 else F.v (penalty d.opts k) • P.flip.gPhi) = if b then 0 else F.v (penalty d.opts k) • P.gPhi := rfl
      rw [e2] at e1
      have e3 : (P.flip.penResidual (F.v (penalty d.opts k)) (F.vec n.nV x) (F.vec (off + n.nA) y) -
          F.v (penalty d.opts k) • (Dᵀ *ᵥ F.vec n.nV x) - if b then 0 else F.v (penalty d.opts k) • P.gPhi) i =
          P.flip.stat false (F.v (penalty d.opts k)) b (F.vec n.nV x) (F.vec (off + n.nA) y) i -
            (F.v (penalty d.opts k) • (Dᵀ *ᵥ F.vec n.nV x)) i := by
        rw [e1]
        simp only [Pi.sub_apply]
        ring
      rw [e3]
      have e4 : ∑ j, (P.Q + F.v (penalty d.opts k) • (P.C - D)) j i * F.vec n.nV x j =
          ((P.Qᵀ + F.v (penalty d.opts k) • P.C) *ᵥ F.vec n.nV x) i - (F.v (penalty d.opts k) • (Dᵀ *ᵥ F.vec n.nV x)) i := by
        rw [← Matrix.smul_mulVec, ← Pi.sub_apply, ← Matrix.sub_mulVec]
        refine Finset.sum_congr rfl fun j _ => ?_
        have hs : P.C j i = P.C i j := congrFun (congrFun P.C_symm i) j
        simp only [Matrix.add_apply, Matrix.sub_apply, Matrix.smul_apply, Matrix.transpose_apply, hs, smul_eq_mul]
        ring
      have e5 : ∑ l, P.AA l i * yLin (F.vec (off + n.nA) y) l = (P.AAᵀ *ᵥ yLin (F.vec (off + n.nA) y)) i := rfl
      simp only [Prob.stat, tr, Bool.false_eq_true, if_false, Pi.sub_apply, Pi.add_apply, e4, e5, flip_C, flip_AA, flip_gT, zero_add]
      have e6 : P.flip.Q = P.Qᵀ := rfl
      rw [e6]
      ring
    · have e1 : ∀ j, P.flip.magC t i j = P.magC t j i := fun j => magC_symm P i j
      have e2 : ∀ j, P.flip.Q i j = P.Q j i := fun j => rfl
      have e3 : P.flip.magG t i = P.magG t i := rfl
      have e4 : P.flip.g i = P.g i := rfl
      simp only [Prob.magStatS, e1, e2, e3, e4, flip_AA]
      ring
  refine ⟨k, b, hk, hr, hb1, hb2, ?_⟩
  rcases hbox with ⟨rfl, hl⟩ | ⟨rfl, hl, hu⟩
  · refine ⟨_, u2 hl (by omega), by simp, fun i => ?_⟩
    rw [gt_tab _ i.2]
    have ab : Apx F.toRounds 0 (gt y i) (yBox (F.vec (n.nV + n.nA) y) i) |yBox (F.vec (n.nV + n.nA) y) i| := by
      have : yBox (F.vec (n.nV + n.nA) y) i = F.v (gt y i) := by
        rw [yBox, dif_pos rfl]; rfl
      rw [this]
      exact Apx.val F.toRounds _
    refine ((main i).one_mul.add' ab.neg_one_mul (by omega)).congr ?_ ?_ <;> ring
  · refine ⟨_, u1 hl hu, by simp, fun i => ?_⟩
    rw [gt_tab _ i.2]
    have e1 : yBox (F.vec (0 + n.nA) y) i = 0 := by
      rw [yBox, dif_neg (by have := i.2; omega)]
    have h1 := main i
    rw [e1, add_zero, abs_zero, sub_zero] at h1
    exact h1.mono (by omega) (by linarith)

/-- the multipliers after the transformation -/
theorem duals_apxS (hd : DataS F d P D) (ho : d.boxOff = some off) {rho : α} (hr : s.rho = some rho)
    {x y : List α} (hx : s.xk = some x) (lx : x.length = n.nV) (hy : s.yk = some y) (ly : y.length = off + n.nA)
    (h : transformDuals e d s = .ok s') :
    ∃ y', s'.yk = some y' ∧ y'.length = off + n.nA ∧ (∀ j < off + n.nC, gt y' j = gt y j) ∧ ∀ j : Fin (off + n.nA),
      Apx F (n.nV + 3) (gt y' j) (P.shifted (F.v rho) (F.vec n.nV x) (F.vec (off + n.nA) y) j)
        (P.magShift t (F.v rho) (F.vec n.nV x) (F.vec (off + n.nA) y) j) := by
  obtain ⟨L, hL, aL⟩ := hd.L
  obtain ⟨R, hR, aR⟩ := hd.R
  obtain ⟨vL, mL, nL⟩ := aL.is
  obtain ⟨vR, mR, nR⟩ := aR.is
  have hA : n.nA = n.nC + 2 * n.nComp := rfl
  simp only [transformDuals, hd.dims, ho, hr, hx, hy, initd_some, deref_some, ok_bind, mulDS, hd.sparse, hL, hR, if_true] at h
  rw [spMul_ok vR (by omega) (by simp [Env.alloc, mR]), ok_bind,
    shiftDuals_any _ _ _ _ (off + n.nA) _ ly (by simp [mR]) (by omega), ok_bind, spMul_ok vL (by omega) (by simp [mL, mR]), ok_bind,
    shiftDuals_any _ _ _ _ (off + n.nA) _ (by simp) (by simp [mL]) (by omega), ok_bind] at h
  injection h with h
  subst h
  refine ⟨_, rfl, by simp, ?_, ?_⟩
  · intro j hj
    rw [gt_tab _ (by omega), if_neg (by omega), gt_tab _ (by omega), if_neg (by omega)]
  · intro j
    have hj := j.2
    have ax : ∀ i : Fin n.nV, Apx F 0 (gt x i) (F.vec n.nV x i) |F.vec n.nV x i| := fun i => Apx.val F _
    have ay : Apx F 0 (gt y j) (F.vec (off + n.nA) y j) |F.vec (off + n.nA) y j| := Apx.val F _
    rw [gt_tab _ hj, gt_tab _ hj]
    unfold Prob.shifted Prob.magShift
    by_cases h1 : j.1 < off + n.nC
    · rw [dif_pos h1, dif_pos h1, if_neg (by omega), if_neg (by omega)]
      exact ay.depth (by omega)
    · rw [dif_neg h1, dif_neg h1]
      by_cases h2 : j.1 < off + n.nC + n.nComp
      · rw [dif_pos h2, dif_pos h2, if_neg (by omega), if_pos (by omega), gt_tab _ (by omega), nR]
        have h3 := (Apx.val F rho).mul (aR.scat ax ⟨j.1 - (off + n.nC), by omega⟩)
        have h4 := (ay.depth (Nat.zero_le _)).sub h3
        exact h4.depth (by omega)
      · rw [dif_neg h2, dif_neg h2, if_pos (by omega), if_neg (by omega), gt_tab _ (by omega), nL]
        have h3 := (Apx.val F rho).mul (aL.scat ax ⟨j.1 - (off + n.nC + n.nComp), by omega⟩)
        have h4 := (ay.depth (Nat.zero_le _)).sub h3
        exact h4.depth (by omega)

end LCQ
