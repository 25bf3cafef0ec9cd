import Verif.Props.SafetySparse
import Verif.Lemmas.Convert

/-!
# Loading and switching modes in any order
-/

set_option linter.unusedSectionVars false

namespace LCQ
open Scalar

variable {α : Type} [Scalar α] {e : Env α} {n : Dims} {o : Obj α}

/-- an object that was never run -/
structure Untouched (o : Obj α) (n : Dims) : Prop extends Built o n where
  idxC : o.s.idxC = []
  calls : o.s.calls = 0
  null : o.s.work = .null

theorem Untouched.new (opts : Options α) {nV nC nComp : Int} (h : 1 ≤ nV ∧ 1 ≤ nComp ∧ 0 ≤ nC) :
    Untouched (Obj.new opts nV nC nComp) ⟨nV.toNat, nC.toNat, nComp.toNat⟩ := by
  have hb := Built.new opts h
  have : (Obj.new opts nV nC nComp).s.idxC = [] ∧ (Obj.new opts nV nC nComp).s.calls = 0 ∧
      (Obj.new opts nV nC nComp).s.work = .null := by
    unfold Obj.new
    dsimp only
    rw [if_neg (by omega), if_neg (by omega), if_neg (by omega)]
    exact ⟨rfl, rfl, rfl⟩
  exact { hb with idxC := this.1, calls := this.2.1, null := this.2.2 }

theorem Untouched.options (h : Untouched o n) (opts : Options α) : Untouched (setOptions o opts) n :=
  { h with work := fun _ => h.null }

theorem Untouched.loadDense (h : Untouched o n) {a : DenseArgs α} {o' : Obj α} (hf : a.Fits n)
    (hp : a.lbL = none ↔ a.lbR = none) (hl : loadDense e o a = .ok (.successfulReturn, o')) :
    Untouched o' n ∧ Ready o' n := by
  obtain ⟨hr, ho, hs⟩ := h.toBuilt.load hf hp hl
  refine ⟨?_, hr⟩
  have hb := hr.built hs h.nComp
  rcases loadDense_ok (e := e) h.dims h.nV h.nComp hf with ⟨_, _, h'⟩ | ⟨_, _, _, h'⟩ | ⟨_, _, _, _, h'⟩ |
    ⟨_, hA, _, _, Q, g, L, R, hQ, hg, hL, hR, lQ, lg, lL, lR, h'⟩
  · rw [h'] at hl; injection hl with hl; injection hl with hl _; cases hl
  · rw [h'] at hl; injection hl with hl; injection hl with hl _; cases hl
  · rw [h'] at hl; injection hl with hl; injection hl with hl _; cases hl
  · rw [h'] at hl
    injection hl with hl
    injection hl with _ hl
    subst hl
    exact { hb with idxC := h.idxC, calls := h.calls, null := h.null }

theorem Untouched.loadSparse (h : Untouched o n) {a : SparseArgs α} {o' : Obj α} (hf : a.Fits n)
    (hp : a.lbL = none ↔ a.lbR = none) (hl : loadSparse e o a = .ok (.successfulReturn, o')) :
    Untouched o' n ∧ Ready o' n := by
  obtain ⟨hr, ho, hs, _⟩ := h.toBuilt.loadSparse h.idxC hf hp hl
  refine ⟨?_, hr⟩
  obtain ⟨Q, L, R, C, hQ, hL, hR, iQ, iL, iR, hCs, hCi, h'⟩ := loadSparse_ok (e := e) h.dims h.nV h.nComp hf
  rcases h' with ⟨_, _, h'⟩ | ⟨_, _, _, h'⟩ | ⟨_, _, _, _, h'⟩ | ⟨_, _, g, c, hg, lg, hc, h'⟩
  · rw [h'] at hl; injection hl with hl; injection hl with hl _; cases hl
  · rw [h'] at hl; injection hl with hl; injection hl with hl _; cases hl
  · rw [h'] at hl; injection hl with hl; injection hl with hl _; cases hl
  · rw [h'] at hl
    injection hl with hl
    injection hl with _ hl
    subst hl
    exact { hr with nComp := h.nComp, Qk := h.Qk, idxC := h.idxC, calls := h.calls, null := h.null }

theorem dnsToCsc_total {b : List α} {m k : Nat} (h : b.length = m * k) :
    ∃ S, dnsToCsc b m k = .ok S ∧ S.Valid ∧ S.m = m ∧ S.n = k := by
  refine ⟨_, dnsToCsc_ok b m k h, ?_, rfl, rfl⟩
  apply cscOf_valid
  intro c _ x hx
  obtain ⟨j, hj, rfl, _⟩ := dnsCol_mem hx
  simp
  omega

/-- switching to sparse mode -/
theorem Untouched.toSparse (h : Untouched o n) (hr : Ready o n) :
    ∃ o', switchToSparse o = .ok (.successfulReturn, o') ∧ Untouched o' n ∧ Ready o' n ∧ o'.d.sparse = true ∧
      o'.d.opts = o.d.opts := by
  unfold switchToSparse
  cases hs : o.d.sparse with
  | true => exact ⟨o, rfl, h, hr, hs, rfl⟩
  | false =>
    have hd : ∀ {B : Option (List α)} {S : Option (CSC α)} {m k : Nat}, MatOK o.d.sparse B S m k → ∃ b, B = some b ∧ b.length = m * k := by
      intro B S m k hm
      simpa [MatOK, hs, Has] using hm
    obtain ⟨Q, hQ, lQ⟩ := hd hr.Q
    obtain ⟨A, hA, lA⟩ := hd hr.A
    obtain ⟨L, hL, lL⟩ := hd hr.L
    obtain ⟨R, hR, lR⟩ := hd hr.R
    obtain ⟨C, hC, lC⟩ := hd hr.C
    obtain ⟨Qs, eQ, vQ⟩ := dnsToCsc_total lQ
    obtain ⟨As, eA, vA⟩ := dnsToCsc_total lA
    obtain ⟨Ls, eL, vL⟩ := dnsToCsc_total lL
    obtain ⟨Rs, eR, vR⟩ := dnsToCsc_total lR
    obtain ⟨Cs, eC, vC⟩ := dnsToCsc_total lC
    rw [if_neg (by simp), h.dims, initd_some, ok_bind, hQ, deref_some, ok_bind, eQ, ok_bind, hA, deref_some, ok_bind,
      show n.nC + 2 * n.nComp = n.nA from rfl, eA, ok_bind, hL, deref_some, ok_bind, eL, ok_bind, hR, deref_some, ok_bind, eR,
      ok_bind, hC, deref_some, ok_bind, eC, ok_bind]
    refine ⟨_, rfl, { h with dims := h.dims }, ?_, rfl, rfl⟩
    exact { hr with
      Q := ⟨_, rfl, vQ⟩
      A := ⟨_, rfl, vA⟩
      L := ⟨_, rfl, vL⟩
      R := ⟨_, rfl, vR⟩
      C := ⟨_, rfl, vC⟩
      Qk := fun _ => h.Qk
      idx := fun _ => h.idxC }

/-- switching to dense mode -/
theorem Untouched.toDense (h : Untouched o n) (hr : Ready o n) :
    ∃ o', switchToDense o = .ok (.successfulReturn, o') ∧ Untouched o' n ∧ Ready o' n ∧ o'.d.sparse = false ∧
      o'.d.opts = o.d.opts := by
  unfold switchToDense
  cases hs : o.d.sparse with
  | false => exact ⟨o, rfl, h, hr, hs, rfl⟩
  | true =>
    have hd : ∀ {B : Option (List α)} {S : Option (CSC α)} {m k : Nat}, MatOK o.d.sparse B S m k →
        ∃ T b, S = some T ∧ cscToDns T = .ok (some b) ∧ b.length = m * k := by
      intro B S m k hm
      have : ∃ T, S = some T ∧ T.Valid ∧ T.m = m ∧ T.n = k := by simpa [MatOK, hs] using hm
      obtain ⟨T, hT, hv, rfl, rfl⟩ := this
      rcases cscToDns_ok T hv.toValidPtr with ⟨_, h⟩ | ⟨⟨k, hk, hn⟩, _⟩
      · exact ⟨T, _, hT, h, by simp⟩
      · exact absurd (hv.rows k hk) hn
    obtain ⟨Qs, Q, hQ, eQ, lQ⟩ := hd hr.Q
    obtain ⟨As, A, hA, eA, lA⟩ := hd hr.A
    obtain ⟨Ls, L, hL, eL, lL⟩ := hd hr.L
    obtain ⟨Rs, R, hR, eR, lR⟩ := hd hr.R
    obtain ⟨Cs, C, hC, eC, lC⟩ := hd hr.C
    rw [if_neg (by simp), hQ, deref_some, ok_bind, eQ, ok_bind, hA, deref_some, ok_bind,
      eA, ok_bind, hL, deref_some, ok_bind, eL, ok_bind, hR, deref_some, ok_bind, eR,
      ok_bind, hC, deref_some, ok_bind, eC, ok_bind]
    dsimp only
    rw [if_neg (by simp)]
    refine ⟨_, rfl, { h with dims := h.dims }, ?_, rfl, rfl⟩
    exact { hr with
      Q := ⟨_, rfl, lQ⟩
      A := ⟨_, rfl, lA⟩
      L := ⟨_, rfl, lL⟩
      R := ⟨_, rfl, lR⟩
      C := ⟨_, rfl, lC⟩
      Qk := fun _ => h.Qk
      idx := by intro h; cases h }

end LCQ
