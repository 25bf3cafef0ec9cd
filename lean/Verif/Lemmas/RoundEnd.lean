import Verif.Lemmas.RoundRun
import Verif.Lemmas.Round

/-!
# Rounding errors at the end of a run in dense mode
-/

set_option linter.unusedSectionVars false

namespace LCQ
open Scalar
open scoped Matrix

section
variable {α : Type} [Scalar α] {d : Data α} {n : Dims} {off : Nat} {s s' : St α} {e : Env α} {o o' : Obj α}

/-- the last pass of a successful run, together with its head -/
theorem success_head (hR : Ready o n) {fuel : Nat} (h : runSolver e fuel o = .ok (some (.successfulReturn, o'))) :
    ∃ (off : Nat) (s u w w' : St α) (v m : α) (st : List α), DataOK o'.d n off ∧ AtHead e o o'.d s ∧ Head o'.d n off u ∧
      (∃ x, u = { s with xk := x }) ∧
      getPhi o'.d o'.s = .ok v ∧ (v <. o'.d.opts.complTol) = true ∧
      o'.s.statk = some st ∧ maxAbs st n.nV = .ok m ∧ (m <. o'.d.opts.statTol) = true ∧
      updateStationarity o'.d u = .ok w ∧ w.statk = some st ∧
      u.xk = o'.s.xk ∧ u.rho = o'.s.rho ∧ u.outer = o'.s.outer ∧ u.ykA = o'.s.ykA ∧
      w'.yk = u.yk ∧ w'.xk = u.xk ∧ w'.rho = u.rho ∧
      transformDuals e o'.d w' = .ok { w' with yk := o'.s.yk } := by
  obtain ⟨s, hat, hp⟩ := run_last h
  obtain ⟨off, hd, hhead, _, _⟩ := hR.head hat
  obtain ⟨s1, s2, s3, h1, h2, h3, ⟨hst, hco, q, hq, hqq⟩ | ⟨s4, t, rho, h4, _, _, h5⟩⟩ := pass_inv hp
  · injection hqq with hqq
    subst hqq
    obtain ⟨hh, gk, h3e⟩ := no_update_before_success h2 h3 hco
    obtain ⟨x, A, B, C, p, l, ss, t, i, _, _, _, ⟨u, hu, hu2⟩, hpe, _, _, hs1⟩ := advance_inv h1
    obtain ⟨x2, lx2, hx2⟩ := updateStep_ok hd hhead.toArrOK
    rw [hu] at hx2
    injection hx2 with hx2
    have hux : Head o'.d n off u := by
      rw [hx2]
      exact ⟨{ hhead.toArrOK with xk := ⟨_, rfl, lx2⟩ }, hhead.qk.congr rfl rfl rfl, hhead.y.congr rfl rfl,
        hhead.gt.congr rfl rfl rfl⟩
    obtain ⟨A', B', C', hp2⟩ := updateStationarity_inv hu2
    have f1 : u.xk = s3.xk ∧ u.rho = s3.rho ∧ u.outer = s3.outer ∧ u.ykA = s3.ykA ∧
        u.yk = s3.yk ∧ p.statk = s3.statk := by
      rw [h3e, hs1]
      dsimp only
      rw [hp2]
      exact ⟨rfl, rfl, rfl, rfl, rfl, rfl⟩
    clear h3e hs1 hp2 hpe
    obtain ⟨y, ta, _, _, hq2⟩ := accept_inv hq
    simp only [accept, bind_eq_ok, initd_eq_ok] at hq
    obtain ⟨a1, ha1, a2, ha2, t', _, hq⟩ := hq
    obtain ⟨y', hy'⟩ := transformDuals_inv ha1
    obtain ⟨t2, _, ht2⟩ := determine_inv ha2
    injection hq with hq
    injection hq with _ hq
    dsimp only at hq2
    have f2 : o'.s.xk = s3.xk ∧ o'.s.rho = s3.rho ∧ o'.s.outer = s3.outer ∧ o'.s.ykA = s3.ykA ∧
        o'.s.statk = s3.statk := by
      rw [hq2]
      exact ⟨rfl, rfl, rfl, rfl, rfl⟩
    have f3 : o'.s.yk = some y' := by
      rw [← hq, ht2, hy']
      split <;> rfl
    obtain ⟨g1, g2, g3, g6, g7⟩ := f2
    obtain ⟨k1, k2, k3, k6, k7, k8⟩ := f1
    simp only [stationarityCheck, bind_eq_ok, initd_eq_ok, deref_eq_ok] at hst
    obtain ⟨n', hn', st, hstk, m, hm, hlt⟩ := hst
    rw [hd.dims] at hn'
    injection hn' with hn'
    subst hn'
    injection hlt with hlt
    simp only [complementarityCheck, bind_eq_ok] at hco
    obtain ⟨v, hv, hvt⟩ := hco
    injection hvt with hvt
    refine ⟨off, s, u, p, s3, v, m, st, hd, hat, hux, ⟨_, hx2⟩, ?_, hvt, ?_, hm, hlt, hu2, ?_, ?_, ?_, ?_, ?_, ?_, ?_, ?_, ?_⟩
    · rw [← hv]
      unfold getPhi
      rw [g1]
    · rw [g7]; exact hstk
    · rw [k8]; exact hstk
    · rw [k1, g1]
    · rw [k2, g2]
    · rw [k3, g3]
    · rw [k6, g6]
    · exact k7.symm
    · exact k1.symm
    · exact k2.symm
    · rw [ha1, hy', f3]
  · exfalso
    rcases h5 with ⟨_, h5⟩ | ⟨_, _, h5⟩ | ⟨_, _, h5⟩
    · injection h5 with h5; injection h5 with h5 _; cases h5
    · injection h5 with h5; injection h5 with h5 _; cases h5
    · obtain ⟨gk, q', _, ⟨hne, h6⟩ | ⟨_, _, _, _, _, ⟨⟩⟩⟩ := nextStep_inv h5
      injection h6 with h6
      injection h6 with h6 _
      exact hne h6.symm

/-- in dense mode: the stationarity vector -/
theorem updateStationarity_dns {x gT ya y Qk A : List α} (hn : d.dims = some n) (hs : d.sparse = false) (hx : s.xk = some x)
    (hg : s.gTilde = some gT) (hq : s.Qk = some Qk) (hya : s.ykA = some ya) (hy : s.yk = some y) (hA : d.A = some A)
    (hb : d.lb ≠ none) (h1 : Has s.statk n.nV) (h2 : Has s.cstat n.nV) (h3 : Has s.bstat n.nV)
    (lx : x.length = n.nV) (lg : gT.length = n.nV) (lq : Qk.length = n.nV * n.nV) (lya : ya.length = n.nA)
    (ly : n.nV ≤ y.length) (lA : A.length = n.nA * n.nV) (h : updateStationarity d s = .ok s') :
    s'.statk = some (tab n.nV fun i => one *. (one *. (one *. facc zero n.nV (fun k => gt Qk (i * n.nV + k) *. gt x k) +.
      gt gT i) +. (-. one) *. facc zero n.nA (fun k => gt A (k * n.nV + i) *. gt ya k)) +. (-. one) *. gt y i) := by
  obtain ⟨st, h1, l1⟩ := h1
  obtain ⟨c, h2, l2⟩ := h2
  obtain ⟨b, h3, l3⟩ := h3
  simp only [updateStationarity, hn, hx, hg, h1, hya, h2, initd_some, deref_some, ok_bind, affineDS, tmulDS, hs, hq, hA,
    Bool.false_eq_true, if_false] at h
  rw [affine_ok lq lx lg l1, ok_bind, matTMul_ok lA (by omega) (by omega), ok_bind, grid_one,
    weightedVecAdd_ok (by simp [Src.val]) (by simp [Src.val]) (by simp), ok_bind] at h
  simp only [boxStat, ne_eq, hb, not_false_eq_true, true_or, if_true, hy, h3, deref_some, ok_bind] at h
  rw [copy_loop_ok' ly l3, ok_bind, weightedVecAdd_ok (by simp [Src.val]) (by simp [Src.val]) (by simp), ok_bind] at h
  injection h with h
  subst h
  dsimp only
  congr 1
  apply tab_congr
  intro i hi
  simp only [Src.val, gt_tab _ hi, Nat.mul_one, Nat.add_zero]

theorem getPhi_dns {x C : List α} {v : α} (hn : d.dims = some n) (hs : d.sparse = false) (hx : s.xk = some x)
    (hC : d.C = some C) (lx : x.length = n.nV) (lC : C.length = n.nV * n.nV) (lg : HasOpt d.gPhi n.nV)
    (h : getPhi d s = .ok v) :
    v = d.phiConst +. (match d.gPhi with
      | none => zero
      | some gp => zero +. facc zero n.nV (fun i => gt gp i *. gt x i)) +.
      (facc zero n.nV fun i => facc zero n.nV (fun j => gt C (i * n.nV + j) *. gt x j) *. gt x i) /. two := by
  simp only [getPhi, hn, hx, initd_some, deref_some, ok_bind, quadDS, hs, hC, Bool.false_eq_true, if_false,
    quadForm_ok lC lx] at h
  rcases lg with hg | ⟨gp, hg, lg⟩
  · simp only [hg, phiLin, ok_bind] at h ⊢
    injection h with h
    exact h.symm
  · simp only [hg, phiLin, ok_bind, dotProd_ok (m := n.nV) (a := gp) (b := x) (by omega) (by omega)] at h ⊢
    injection h with h
    exact h.symm

end

variable {α : Type} [Scalar α] {K : Type} [Field K] [LinearOrder K] [IsStrictOrderedRing K] {u t : K}
  {F : Rounds α K u t} {n : Dims} {P : Prob K n} {d : Data α} {s : St α} {e : Env α} {o : Obj α}

/-! ## arrays -/

/-- the entries of an array approximate a vector -/
def AVec (F : Rounds α K u t) (k : Nat) (b : Option (List α)) (m : Nat) (v l : Fin m → K) : Prop :=
  ∃ c, b = some c ∧ c.length = m ∧ ∀ i : Fin m, Apx F k (gt c i) (v i) (l i)

/-- the entries of an array, read by rows, approximate a matrix -/
def AMat (F : Rounds α K u t) (k : Nat) (b : Option (List α)) (m p : Nat) (B l : Fin m → Fin p → K) : Prop :=
  ∃ c, b = some c ∧ c.length = m * p ∧ ∀ (i : Fin m) (j : Fin p), Apx F k (gt c (i * p + j)) (B i j) (l i j)

/-- dense data approximating a problem -/
structure DataA (F : Rounds α K u t) (d : Data α) (P : Prob K n) : Prop where
  dims : d.dims = some n
  sparse : d.sparse = false
  Q : AMat F 0 d.Q n.nV n.nV P.Q fun i j => |P.Q i j|
  A : AMat F 0 d.A n.nA n.nV P.AA fun i j => |P.AA i j|
  L : AMat F 0 d.L n.nComp n.nV P.L fun i j => |P.L i j|
  R : AMat F 0 d.R n.nComp n.nV P.R fun i j => |P.R i j|
  C : AMat F (n.nComp + 2) d.C n.nV n.nV P.C (P.magC t)
  g : AVec F 0 d.g n.nV P.g fun i => |P.g i|
  lb : d.lb ≠ none
  phiConst : Apx F (n.nComp + 1) d.phiConst (P.lbL ⬝ᵥ P.lbR) (∑ k, (|P.lbL k| * |P.lbR k| + t))
  gPhi : (d.gPhi = none ∧ P.gPhi = 0) ∨ AVec F (2 * n.nComp + 1) d.gPhi n.nV P.gPhi (P.magG t)

theorem Apx.mul' {k j : Nat} {a b : α} {v w m l : K} (h : Apx F k a v m) (h' : Apx F j b w l) {i : Nat} (hi : k + j + 1 ≤ i) :
    Apx F i (a *. b) (v * w) (m * l + t) := (h.mul h').depth hi

theorem Apx.add' {k j : Nat} {a b : α} {v w m l : K} (h : Apx F k a v m) (h' : Apx F j b w l) {i : Nat} (hi : max k j + 1 ≤ i) :
    Apx F i (a +. b) (v + w) (m + l) :=
  ((h.depth (le_max_left k j)).add (h'.depth (le_max_right k j))).depth hi

theorem Apx.congr {k : Nat} {a : α} {v v' m m' : K} (h : Apx F k a v m) (hv : v = v') (hm : m = m') : Apx F k a v' m' := by
  rw [← hv, ← hm]; exact h

theorem Apx.one_mul {k : Nat} {a : α} {v m : K} (h : Apx F k a v m) : Apx F (k + 1) (Scalar.one *. a) v (m + t) :=
  ((Apx.one F).mul' h (by omega)).congr (_root_.one_mul _) (by rw [_root_.one_mul])

theorem Apx.neg_one_mul {k : Nat} {a : α} {v m : K} (h : Apx F k a v m) : Apx F (k + 1) ((-. Scalar.one) *. a) (-v) (m + t) :=
  ((Apx.one F).neg.mul' h (by omega)).congr (by ring) (by rw [_root_.one_mul])

theorem magC_nonneg (F : Rounds α K u t) (P : Prob K n) (i j : Fin n.nV) : 0 ≤ P.magC t i j :=
  Finset.sum_nonneg fun k _ => by have := F.t0; positivity

theorem magG_nonneg (F : Rounds α K u t) (P : Prob K n) (i : Fin n.nV) : 0 ≤ P.magG t i :=
  add_nonneg (Finset.sum_nonneg fun k _ => by have := F.t0; positivity)
    (Finset.sum_nonneg fun k _ => by have := F.t0; positivity)

/-- the complementarity value -/
theorem getPhi_apx (hd : DataA F d P) {x : List α} (hx : s.xk = some x) (lx : x.length = n.nV) {v : α}
    (h : getPhi d s = .ok v) :
    Apx F (2 * n.nV + 2 * n.nComp + 6) v (P.phi (F.vec n.nV x)) (P.magPhi t (F.vec n.nV x)) := by
  obtain ⟨C, hC, lC, aC⟩ := hd.C
  have ax : ∀ i : Fin n.nV, Apx F 0 (gt x i) (F.vec n.nV x i) |F.vec n.nV x i| := fun i => Apx.val F _
  have lg : HasOpt d.gPhi n.nV := by
    rcases hd.gPhi with ⟨h, _⟩ | ⟨c, h, l, _⟩
    · exact Or.inl h
    · exact Or.inr ⟨c, h, l⟩
  have hlin : Apx F (2 * n.nComp + n.nV + 3) (match d.gPhi with
      | none => Scalar.zero
      | some gp => Scalar.zero +. facc Scalar.zero n.nV (fun i => gt gp i *. gt x i)) (P.gPhi ⬝ᵥ F.vec n.nV x)
      (∑ j, (P.magG t j * |F.vec n.nV x j| + t)) := by
    rcases hd.gPhi with ⟨h, h0⟩ | ⟨c, h, l, a⟩
    · rw [h, h0, zero_dotProduct]
      refine (Apx.zero F).mono (by omega) (Finset.sum_nonneg fun k _ => ?_)
      have := F.t0
      have := magG_nonneg F P k
      positivity
    · rw [h]
      dsimp only
      exact ((Apx.zero F).add' (Apx.sum fun i => (a i).mul (ax i)) (by omega)).congr (by rw [zero_add]; rfl) (by rw [zero_add])
  rw [getPhi_dns hd.dims hd.sparse hx hC lx lC lg h, P.phi_eq]
  have hq : Apx F (n.nComp + 2 * n.nV + 5) ((facc Scalar.zero n.nV fun i =>
      facc Scalar.zero n.nV (fun j => gt C (i * n.nV + j) *. gt x j) *. gt x i) /. two)
      (F.vec n.nV x ⬝ᵥ (P.C *ᵥ F.vec n.nV x) / 2)
      ((∑ i, ((∑ j, (P.magC t i j * |F.vec n.nV x j| + t)) * |F.vec n.nV x i| + t)) / 2 + t) := by
    have h1 : ∀ i : Fin n.nV, Apx F _ (facc Scalar.zero n.nV fun j => gt C (i * n.nV + j) *. gt x j)
        (∑ j, P.C i j * F.vec n.nV x j) (∑ j, (P.magC t i j * |F.vec n.nV x j| + t)) :=
      fun i => Apx.sum fun j => (aC i j).mul (ax j)
    refine ((Apx.sum fun i => (h1 i).mul (ax i)).half.depth (by omega)).congr ?_ rfl
    congr 1
    exact Finset.sum_congr rfl fun i _ => mul_comm _ _
  exact (hd.phiConst.add' hlin (le_refl _)).add' hq (by omega)

/-- the penalised Hessian -/
theorem qk_apx (hd : DataA F d P) (hq : DenseQk d n s) {rho : α} (hr : s.rho = some rho) :
    AMat F (n.nComp + 4) s.Qk n.nV n.nV (P.Q + F.v rho • P.C) fun i j => |P.Q i j| + |F.v rho| * P.magC t i j + 2 * t := by
  obtain ⟨Q, hQ, lQ, aQ⟩ := hd.Q
  obtain ⟨C, hC, lC, aC⟩ := hd.C
  obtain ⟨rho', Q', C', D, hr', hQ', hC', hD, _, _, lD, hDt⟩ := hq
  rw [hr] at hr'
  rw [hQ] at hQ'
  rw [hC] at hC'
  injection hr' with hr'
  injection hQ' with hQ'
  injection hC' with hC'
  subst hr' hQ' hC'
  refine ⟨D, hD, lD, fun i j => ?_⟩
  have hlt : i.1 * n.nV + j.1 < n.nV * n.nV := idx_lt i.2 j.2
  have := hDt (i * n.nV + j) (gt Q (i * n.nV + j)) (gt C (i * n.nV + j))
    (by simp [gt, List.getD_eq_getElem?_getD, List.getElem?_eq_getElem (show i.1 * n.nV + j.1 < Q.length by omega)])
    (by simp [gt, List.getD_eq_getElem?_getD, List.getElem?_eq_getElem (show i.1 * n.nV + j.1 < C.length by omega)])
  have e : gt D (i * n.nV + j) = Scalar.one *. gt Q (i * n.nV + j) +. rho *. gt C (i * n.nV + j) := by
    rw [gt, List.getD_eq_getElem?_getD, this]; rfl
  rw [e]
  refine ((aQ i j).one_mul.add' ((Apx.val F rho).mul (aC i j)) (by omega)).congr ?_ (by ring)
  simp [Matrix.add_apply, Matrix.smul_apply]

/-- the gradient used in the stationarity test -/
theorem gT_apx' (hdg : AVec F 0 d.g n.nV P.g fun i => |P.g i|)
    (hgPhi : (d.gPhi = none ∧ P.gPhi = 0) ∨ AVec F (2 * n.nComp + 1) d.gPhi n.nV P.gPhi (P.magG t))
    (hg : GT d n s) {rho : α} (hr : s.rho = some rho) :
    ∃ b : Bool, (b = false → s.outer = some 0 ∨ P.gPhi = 0) ∧ (s.outer = some 0 → b = false) ∧
      AVec F (2 * n.nComp + 3) s.gTilde n.nV (P.gT b (F.v rho)) fun i => |P.g i| + |F.v rho| * P.magG t i + 2 * t := by
  obtain ⟨g, hg1, lg, ag⟩ := hdg
  obtain ⟨g', k, hg', _, hk, hk0, h⟩ := hg
  rw [hg1] at hg'
  injection hg' with hg'
  subst hg'
  have ht := F.t0
  rcases h with ⟨h, hk'⟩ | ⟨gp, r, hgp, lgp, hr', hk', h⟩
  · refine ⟨false, fun _ => ?_, fun _ => rfl, g, h, lg, fun i => ?_⟩
    · rcases hk' with rfl | hk'
      · exact Or.inl hk
      · right
        rcases hgPhi with ⟨_, h⟩ | ⟨_, h, _⟩
        · exact h
        · rw [hk'] at h; cases h
    · refine (ag i).mono (by omega) ?_
      have := mul_nonneg (abs_nonneg (F.v rho)) (magG_nonneg F P i)
      linarith
  · rw [hr] at hr'
    injection hr' with hr'
    subst hr'
    refine ⟨true, by simp, ?_, _, h, by simp, fun i => ?_⟩
    · intro h0
      rw [hk] at h0
      injection h0 with h0
      omega
    · rcases hgPhi with ⟨h, _⟩ | ⟨gp', h, _, a⟩
      · rw [hgp] at h; cases h
      · rw [hgp] at h
        injection h with h
        subst h
        rw [gt_tab _ i.2]
        refine ((ag i).one_mul.add' ((Apx.val F rho).mul (a i)) (by omega)).congr ?_ (by ring)
        simp [Prob.gT]

theorem gT_apx (hd : DataA F d P) (hg : GT d n s) {rho : α} (hr : s.rho = some rho) :
    ∃ b : Bool, (b = false → s.outer = some 0 ∨ P.gPhi = 0) ∧ (s.outer = some 0 → b = false) ∧
      AVec F (2 * n.nComp + 3) s.gTilde n.nV (P.gT b (F.v rho)) fun i => |P.g i| + |F.v rho| * P.magG t i + 2 * t :=
  gT_apx' hd.g hd.gPhi hg hr

end LCQ
