import Verif.Spec.Qp
import Verif.Lemmas.ExactEnd
import Verif.Props.Convert

/-!
# Exact arithmetic: what is handed to the QP solver
-/

set_option linter.unusedSectionVars false

namespace LCQ
open Scalar Ext
open scoped Matrix

variable {K : Type} [Field K] [LinearOrder K] {n : Dims} {d : Data (Ext K)} {P : Prob K n} {e : Env (Ext K)} {o : Obj (Ext K)}

/-- The bounds held by a loaded object; missing box bounds are infinite. -/
structure BoundsAre (o : Obj (Ext K)) (n : Dims) (lA uA : Fin n.nA → Ext K) (l u : Fin n.nV → Ext K) : Prop where
  lbA : o.d.lbA = some (List.ofFn lA)
  ubA : o.d.ubA = some (List.ofFn uA)
  lb : orFill o.d.lbTmp n.nV ninf = List.ofFn l
  ub : orFill o.d.ubTmp n.nV pinf = List.ofFn u

theorem boundsAre_ex (h : Ready o n) : ∃ lA uA l u, BoundsAre o n lA uA l u := by
  have key : ∀ (m : Nat) (b : List (Ext K)), b.length = m → ∃ v : Fin m → Ext K, b = List.ofFn v := by
    rintro _ b rfl
    exact ⟨b.get, (List.ofFn_get b).symm⟩
  obtain ⟨a, ha, la⟩ := h.lbA
  obtain ⟨b, hb, lb⟩ := h.ubA
  obtain ⟨lA, rfl⟩ := key _ a la
  obtain ⟨uA, rfl⟩ := key _ b lb
  have hf : ∀ (b : Option (List (Ext K))) (v : Ext K), HasOpt b n.nV → (orFill b n.nV v).length = n.nV := by
    rintro b v (rfl | ⟨w, rfl, lw⟩) <;> simp [orFill]
    omega
  obtain ⟨l, hl⟩ := key _ _ (hf _ ninf h.lbTmp)
  obtain ⟨u, hu⟩ := key _ _ (hf _ pinf h.ubTmp)
  exact ⟨lA, uA, l, u, ha, hb, hl, hu⟩

theorem setBox_fill {b : Option (List (Ext K))} {v : Ext K} {q : RV × Option (List (Ext K))} (hn : d.dims = some n)
    (hb : HasOpt b n.nV) (h : setBox d b v = .ok q) (hq : q.1 = .successfulReturn) : q.2 = some (orFill b n.nV v) := by
  simp only [setBox, hn, initd_some, ok_bind] at h
  split at h
  · injection h with h
    rw [← h] at hq; cases hq
  · rcases hb with rfl | ⟨w, rfl, lw⟩
    · injection h with h
      rw [← h]; rfl
    · dsimp only at h
      rw [copyN_ok lw, ok_bind] at h
      injection h with h
      rw [← h]
      simp [orFill, ← lw]

theorem setBoxes_fill {b : RV × Data (Ext K)} (hn : d.dims = some n) (hl : HasOpt d.lbTmp n.nV) (hu : HasOpt d.ubTmp n.nV)
    (h : setBoxes d = .ok b) (hb : b.1 = .successfulReturn) : b.2 = { d with
      lb := some (orFill d.lbTmp n.nV ninf)
      ub := some (orFill d.ubTmp n.nV pinf) } := by
  simp only [setBoxes, bind_eq_ok] at h
  obtain ⟨l, h1, h⟩ := h
  split at h
  · injection h with h
    rw [← h] at hb; contradiction
  · rename_i hl1
    simp only [bind_eq_ok] at h
    obtain ⟨u, h2, h⟩ := h
    split at h
    · injection h with h
      rw [← h] at hb; contradiction
    · rename_i hu1
      injection h with h
      rw [← h, setBox_fill hn hl h1 (not_not.mp hl1), setBox_fill hn hu h2 (not_not.mp hu1)]
      rfl

theorem spIs_qpCopy {S : CSC (Ext K)} {m k : Nat} {B : Matrix (Fin m) (Fin k) K} (h : SpIs (some S) m k B) {T : CSC (Ext K)}
    (hT : qpCopy S m k = .ok T) : SpIs (some T) m k B := by
  obtain ⟨U, hU, vU, mU, nU, dU⟩ := h
  injection hU with hU
  subst hU
  have hv := vU.emb
  have h1 := qpCopy_ok hv m
  have hn : U.emb.n = k := nU
  rw [hn, hT] at h1
  injection h1 with h1
  let V : CSC K := { U with nzmax := U.P U.n }
  have vV : V.Valid := { vU with
    nz := le_refl _
    ilen := le_trans vU.nz vU.ilen
    xlen := le_trans vU.nz vU.xlen }
  refine ⟨trimK V, ?_, trimK_valid vV, mU, nU, (trimK_den vV nU).trans dU⟩
  rw [h1, ← trim_emb]
  subst nU mU
  rfl

theorem spIs_copyCSC {S : CSC (Ext K)} {m k : Nat} {B : Matrix (Fin m) (Fin k) K} (h : SpIs (some S) m k B) {T : CSC (Ext K)}
    (hT : copyCSC S = .ok T) : SpIs (some T) m k B := by
  obtain ⟨U, hU, vU, mU, nU, dU⟩ := h
  injection hU with hU
  subst hU
  have h1 := copyCSC_ok vU.emb
  rw [hT] at h1
  injection h1 with h1
  refine ⟨trimK U, ?_, trimK_valid vU, mU, nU, (trimK_den vU nU).trans dU⟩
  rw [h1, ← trim_emb]
  rfl

theorem spIs_upper {S : CSC (Ext K)} {m : Nat} {B : Matrix (Fin m) (Fin m) K} (h : SpIs (some S) m m B) {T : CSC (Ext K)}
    (hT : copyCSCUpper S = .ok T) : SpIs (some T) m m (fun i j => if i ≤ j then B i j else 0) := by
  obtain ⟨U, hU, vU, mU, nU, dU⟩ := h
  injection hU with hU
  subst hU
  obtain ⟨V, hV, vV, mV, nV, _, _, dV⟩ := C10_upper U vU
  rw [hT] at hV
  injection hV with hV
  refine ⟨V, by rw [hV], vV, mV.trans mU, nV.trans nU, ?_⟩
  subst dU
  ext r c
  have := dV ⟨r, by rw [mU]; exact r.2⟩ ⟨c, by rw [nU]; exact c.2⟩
  exact this

theorem orFill_none (m : Nat) (v : Ext K) {w : Fin m → Ext K} (h : orFill none m v = List.ofFn w) : w = fun _ => v := by
  rw [orFill, ← List.ofFn_const] at h
  exact (List.ofFn_injective h).symm

/-- the wrapper gets the matrices of the problem and the request its bounds -/
theorem chooseSolver_sub (hR : Ready o n) (hH : Holds o n P) {lA uA : Fin n.nA → Ext K} {l u : Fin n.nV → Ext K}
    (hB : BoundsAre o n lA uA l u) {r : RV × Obj (Ext K)} (h : chooseSolver e o = .ok r) (hr : r.1 = .successfulReturn) :
    (∃ sub, r.2.d.sub = some sub ∧ sub.Holds n P.Q P.AA) ∧ BoxIs r.2.d.lb ninf l ∧ BoxIs r.2.d.ub pinf u := by
  have hQ := hH.mats.Q
  have hA := hH.mats.A
  simp only [MatIs] at hQ hA
  simp only [chooseSolver, hR.dims, initd_some, ok_bind] at h
  split at h
  · split at h
    · injection h with h
      rw [← h] at hr; cases hr
    · rename_i hsp
      simp only [bind_eq_ok] at h
      obtain ⟨b, hb, h⟩ := h
      split at h
      · rename_i hb1
        injection h with h
        rw [← h] at hr
        exact absurd hr hb1
      · rename_i hb1
        have hb2 := setBoxes_fill (by rfl) (by exact hR.lbTmp) (by exact hR.ubTmp) hb (not_not.mp hb1)
        rw [if_neg (by exact hsp)] at hQ hA
        obtain ⟨Q, hQ1, lQ, eQ⟩ := hQ
        obtain ⟨A, hA1, lA', eA⟩ := hA
        rw [hQ1, hA1] at h
        simp only [deref_some, ok_bind] at h
        rw [copyN_ok (by simp [lQ]), ok_bind, copyN_ok (by simp [lA']), ok_bind] at h
        injection h with h
        subst h
        refine ⟨⟨_, rfl, rfl, rfl, ⟨Q, rfl, lQ, eQ⟩, A, rfl, lA', eA⟩, ?_, ?_⟩
        · rw [hb2]; exact Or.inl (congrArg some hB.lb)
        · rw [hb2]; exact Or.inl (congrArg some hB.ub)
  · split at h
    · split at h
      · injection h with h
        rw [← h] at hr; cases hr
      · rename_i hsp
        have hsp : o.d.sparse = true := by simpa using hsp
        simp only [bind_eq_ok] at h
        obtain ⟨b, hb, h⟩ := h
        split at h
        · rename_i hb1
          injection h with h
          rw [← h] at hr
          exact absurd hr hb1
        · rename_i hb1
          have hb2 := setBoxes_fill (by rfl) (by exact hR.lbTmp) (by exact hR.ubTmp) hb (not_not.mp hb1)
          rw [if_pos hsp] at hQ hA
          simp only [bind_eq_ok, deref_eq_ok] at h
          obtain ⟨Q, hQ1, Q', hQ2, A, hA1, A', hA2, h⟩ := h
          rw [hQ1] at hQ
          rw [hA1] at hA
          injection h with h
          subst h
          refine ⟨⟨_, rfl, rfl, rfl, spIs_qpCopy hQ hQ2, spIs_qpCopy hA hA2⟩, ?_, ?_⟩
          · rw [hb2]; exact Or.inl (congrArg some hB.lb)
          · rw [hb2]; exact Or.inl (congrArg some hB.ub)
    · split at h
      · split at h
        · injection h with h
          rw [← h] at hr; cases hr
        · rename_i hbox
          simp only [bind_eq_ok] at h
          obtain ⟨y, hy, h⟩ := h
          split at h
          · injection h with h
            rw [← h] at hr; cases hr
          · rename_i hsp
            have hsp : o.d.sparse = true := by simpa using hsp
            split at h
            · injection h with h
              rw [← h] at hr; cases hr
            · rename_i htmp
              rw [if_pos hsp] at hQ hA
              simp only [bind_eq_ok, deref_eq_ok] at h
              obtain ⟨Q, hQ1, Q', hQ2, A, hA1, A', hA2, w, hw, h⟩ := h
              rw [hQ1] at hQ
              rw [hA1] at hA
              injection h with h
              subst h
              push Not at hbox htmp
              refine ⟨⟨_, rfl, spIs_upper hQ hQ2, spIs_copyCSC hA hA2⟩, ?_, ?_⟩
              · refine Or.inr ⟨hbox.1, orFill_none _ _ ?_⟩
                rw [← htmp.1]; exact hB.lb
              · refine Or.inr ⟨hbox.2, orFill_none _ _ ?_⟩
                rw [← htmp.2]; exact hB.ub
      · injection h with h
        rw [← h] at hr; cases hr

/-- what the data hold during the run -/
structure Sends (d : Data (Ext K)) (n : Dims) (P : Prob K n) (lA uA : Fin n.nA → Ext K) (l u : Fin n.nV → Ext K) : Prop where
  sub : ∃ sub, d.sub = some sub ∧ sub.Holds n P.Q P.AA
  lbA : d.lbA = some (List.ofFn lA)
  ubA : d.ubA = some (List.ofFn uA)
  lb : BoxIs d.lb ninf l
  ub : BoxIs d.ub pinf u

theorem init_sends (hR : Ready o n) (hH : Holds o n P) {lA uA : Fin n.nA → Ext K} {l u : Fin n.nV → Ext K}
    (hB : BoundsAre o n lA uA l u) {i : RV × Obj (Ext K)} (h : initializeSolver e o = .ok i) (hi : i.1 = .successfulReturn) :
    Sends i.2.d n P lA uA l u := by
  have hok := initializeSolver_ok h hi
  simp only [initializeSolver, bind_eq_ok] at h
  obtain ⟨c, hc, h⟩ := h
  split at h
  · rename_i hne
    injection h with h
    rw [← h] at hi
    exact absurd hi hne
  · rename_i hne
    obtain ⟨h1, h2, h3⟩ := chooseSolver_sub hR hH hB hc (not_not.mp hne)
    simp only [initRest, bind_eq_ok] at h
    obtain ⟨_, _, _, _, _, _, d', hd', h⟩ := h
    have e1 : i.2.d = { d' with
      lbTmp := none
      ubTmp := none } := by
      injection h with h
      rw [← h]
    obtain ⟨nd, bo, l', u', sub', y', w', gt', pc', gp', hshape⟩ := hok
    have e2 : i.2.d.sub = c.2.d.sub ∧ i.2.d.lb = c.2.d.lb ∧ i.2.d.ub = c.2.d.ub := by
      rw [e1]
      rcases initPhi_inv hd' with ⟨_, _, hp⟩ | ⟨_, _, _, _, _, _, hp⟩ <;> rw [hp] <;> exact ⟨rfl, rfl, rfl⟩
    refine ⟨by rw [e2.1]; exact h1, ?_, ?_, by rw [e2.2.1]; exact h2, by rw [e2.2.2]; exact h3⟩
    · rw [hshape]; exact hB.lbA
    · rw [hshape]; exact hB.ubA

end LCQ
