import Verif.Lemmas.CheckedCount
import Verif.Props.Checked

/-!
# C60: the counters of stored entries

`LCQ.Cnt` repeats the functions that build sparse matrices entry by entry, with the counter `p[j+1]++` checked.  Each of them gives the
matrix of the unchecked function if its number of entries fits into `int`, and overflows otherwise; and the number is bounded by the size.
-/

namespace LCQ
open Scalar Ext

variable {α : Type} [Scalar α]
set_option linter.unusedSectionVars false

theorem maxInt_eq : (maxInt : Int) = intMax := rfl

/-- Conversion of a dense matrix: it overflows exactly if the matrix has more entries than fit, which are at most `m n`. -/
theorem C60_count_dns {full : List α} {m n : Nat} {S : CSC α} (h : dnsToCsc full m n = .ok S) :
    Cnt.dnsToCsc full m n = (if S.i.length ≤ maxInt then .ok S else .error .overflow) ∧ S.i.length ≤ m * n := by
  unfold dnsToCsc at h
  rw [bind_eq_ok] at h
  obtain ⟨b, hb, h⟩ := h
  replace h := Except.ok.inj h
  subst h
  have hg := Cnt.dns_grows full m n _ _ hb
  have hf := (Cnt.dns_follows maxInt_eq full m n).ok _ _ (Nat.zero_le _) hb
  constructor
  · unfold Cnt.dnsToCsc
    refine (congrArg (· >>= _) hf).trans ?_
    by_cases hl : Cnt.cnt b ≤ maxInt
    · rw [if_pos hl, if_pos (show (createCSC m n b.rows.length b.data b.rows b.p).i.length ≤ maxInt from hl)]
      rfl
    · rw [if_neg hl, if_neg (show ¬ (createCSC m n b.rows.length b.data b.rows b.p).i.length ≤ maxInt from hl)]
      rfl
  · have : Cnt.cnt (Build.init : Build α) = 0 := rfl
    rw [Nat.mul_comm m n]
    show Cnt.cnt b ≤ _
    simpa [this] using hg

/-- A dense matrix that fits is converted without overflow. -/
theorem C60_count_dns_fits {full : List α} {m n : Nat} (h : full.length = m * n) (hm : m * n ≤ maxInt) :
    Cnt.dnsToCsc full m n = dnsToCsc full m n := by
  have hd := dnsToCsc_ok full m n h
  obtain ⟨h1, h2⟩ := C60_count_dns hd
  rw [h1, if_pos (h2.trans hm), hd]

/-- A dense matrix without zeros that does not fit makes the counter overflow. -/
theorem C60_count_dns_full {full : List α} {m n : Nat} (h : full.length = m * n) (hm : maxInt < m * n)
    (hz : ∀ v ∈ full, ((zero <. v) || (v <. zero)) = true) : Cnt.dnsToCsc full m n = .error .overflow := by
  obtain ⟨h1, -⟩ := C60_count_dns (dnsToCsc_ok full m n h)
  rw [h1, if_neg]
  have col : ∀ c < n, (dnsCol full m n c).length = m := by
    intro c hc
    rw [dnsCol, List.length_flatMap]
    have : ∀ j ∈ List.range m, (if (zero <. gt full (j * n + c)) || (gt full (j * n + c) <. zero)
        then [((j : Int), gt full (j * n + c))] else []).length = 1 := by
      intro j hj
      rw [List.mem_range] at hj
      have hlt : j * n + c < full.length := by rw [h]; exact idx_lt hj hc
      rw [if_pos]
      · rfl
      · apply hz
        rw [gt, List.getD_eq_getElem?_getD, List.getElem?_eq_getElem hlt, Option.getD_some]
        exact List.getElem_mem hlt
    rw [List.map_congr_left this]
    simp
  have key : ∀ t ≤ n, (ents (dnsCol full m n) t).length = t * m := by
    intro t
    induction t with
    | zero => intro _; simp [ents_zero]
    | succ t ih =>
      intro ht
      rw [ents_succ, List.length_append, ih (by omega), col t (by omega), Nat.succ_mul]
  have : (cscOf m n (dnsCol full m n)).i.length = m * n := by
    simp only [cscOf, List.length_map]
    rw [key n (le_refl _), Nat.mul_comm]
  omega

/-- The product `LᵀR + RᵀL`: it overflows exactly if it has more entries than fit, which are at most `n²`. -/
theorem C60_count_sym {L R : CSC α} {o : Option (CSC α)} (h : symProdSparse L R = .ok o) :
    Cnt.symProdSparse L R = (if (o.elim 0 fun S => S.i.length) ≤ maxInt then .ok o else .error .overflow) ∧
      (o.elim 0 fun S => S.i.length) ≤ L.n * L.n := by
  unfold symProdSparse at h
  dsimp only at h
  rw [bind_eq_ok] at h
  obtain ⟨b, hb, h⟩ := h
  have hg := Cnt.sym_grows L R L.n _ _ hb
  have hf := (Cnt.sym_follows maxInt_eq L R L.n).ok _ _ (Nat.zero_le _) hb
  have h0 : Cnt.cnt (Build.init : Build α) = 0 := rfl
  have hl : (o.elim 0 fun S => S.i.length) = Cnt.cnt b := by
    by_cases hz : b.rows.length = 0
    · rw [if_pos hz] at h
      rw [← Except.ok.inj h]
      exact hz.symm
    · rw [if_neg hz] at h
      rw [← Except.ok.inj h]
      rfl
  rw [hl]
  constructor
  · unfold Cnt.symProdSparse
    dsimp only
    refine (congrArg (· >>= _) hf).trans ?_
    by_cases hc : Cnt.cnt b ≤ maxInt
    · rw [if_pos hc, if_pos hc, ok_bind, h]
    · rw [if_neg hc, if_neg hc]
      rfl
  · simpa [h0] using hg

/-- Copy of the upper triangle: it overflows exactly if it has more entries than fit, which are at most those of the matrix. -/
theorem C60_count_upper {S U : CSC α} (hS : S.ValidPtr) (h : copyCSCUpper S = .ok U) :
    Cnt.copyCSCUpper S = (if U.i.length ≤ maxInt then .ok U else .error .overflow) ∧ U.i.length ≤ S.P S.n := by
  unfold copyCSCUpper at h
  rw [bind_eq_ok] at h
  obtain ⟨b, hb, h⟩ := h
  replace h := Except.ok.inj h
  subst h
  have hf := (Cnt.upper_follows maxInt_eq S).ok _ _ (Nat.zero_le _) hb
  refine ⟨?_, Cnt.upper_count hS _ (le_refl _) b hb⟩
  unfold Cnt.copyCSCUpper
  refine (congrArg (· >>= _) hf).trans ?_
  show _ = if Cnt.cnt b ≤ maxInt then _ else _
  by_cases hl : Cnt.cnt b ≤ maxInt
  · rw [if_pos hl, if_pos hl]
    rfl
  · rw [if_neg hl, if_neg hl]
    rfl

/-- The merge of `Q` and `C`: it overflows exactly if the result has more entries than fit; these are at most those of `Q` and `C`
together, and at most `nV²` if the rows of both are sorted. -/
theorem C60_count_merge (rho : α) {Q C : CSC α} {nV : Nat} (hQ : Q.ValidPtr) (hC : C.ValidPtr) (nQ : Q.n = nV) (nC : C.n = nV) (idx : List Int) :
    ∃ s, mergeQC rho Q C nV idx = .ok s ∧
      Cnt.mergeQC rho Q C nV idx = (if s.1.rows.length ≤ maxInt then .ok s else .error .overflow) ∧
      s.1.rows.length ≤ Q.P nV + C.P nV ∧
      (Q.Valid → C.Valid → Q.Sorted → C.Sorted → Q.m = nV → C.m = nV → s.1.rows.length ≤ nV * nV) := by
  have h := mergeQC_ok rho Q C hQ hC nV nQ nC idx
  have hl : (buildOf (fun j => (mcol Q C j).map (Ent.pair (Ent.val rho))) nV).rows.length = (mall Q C nV).length := by
    rw [buildOf, ents_mcol]
    simp
  refine ⟨_, h, ?_, ?_, ?_⟩
  · exact (Cnt.merge_follows maxInt_eq rho Q C nV).ok _ _ (Nat.zero_le _) h
  · rw [hl]
    exact Cnt.mall_sum hQ hC nV nQ.ge nC.ge
  · intro vQ vC sQ sC mQ mC
    rw [hl]
    exact Cnt.mall_square vQ vC sQ sC nV mQ.le mC.le nV nQ.ge nC.ge

/-- If `nV²` fits, neither the product nor the merge of sorted matrices overflows. -/
theorem C60_count_square {n : Dims} {d : Bool} (hn : SmallInt n d) (rho : α) {L R Q C : CSC α} {o : Option (CSC α)} (nL : L.n = n.nV)
    (h : symProdSparse L R = .ok o) (vQ : Q.Valid) (vC : C.Valid) (sQ : Q.Sorted) (sC : C.Sorted) (nQ : Q.n = n.nV) (nC : C.n = n.nV)
    (mQ : Q.m = n.nV) (mC : C.m = n.nV) (idx : List Int) :
    Cnt.symProdSparse L R = symProdSparse L R ∧ Cnt.mergeQC rho Q C n.nV idx = mergeQC rho Q C n.nV idx := by
  constructor
  · obtain ⟨h1, h2⟩ := C60_count_sym h
    rw [nL] at h2
    rw [h1, if_pos (h2.trans hn.square), h]
  · obtain ⟨s, h1, h2, -, h4⟩ := C60_count_merge rho vQ.toValidPtr vC.toValidPtr nQ nC idx
    rw [h2, if_pos ((h4 vQ vC sQ sC mQ mC).trans hn.square), h1]

/-- After a successful sparse load, with `nV²` in range: neither the product computed by the load nor the merge at the start of a run
overflows if the rows of `Q` are sorted, or if the entries of `Q` and `nV²` fit together. -/
theorem C60_count_loaded {e : Env α} {o o' : Obj α} {n : Dims} {a : SparseArgs α} {Q : CSC α} (hn : o.d.dims = some n) (hV : n.nV ≠ 0)
    (hC : n.nComp ≠ 0) (hf : a.Fits n) (hQ : a.Q = some Q) (hs : n.nV * n.nV ≤ maxInt) (hc : Q.Sorted ∨ nnz a.Q + n.nV * n.nV ≤ maxInt)
    (h : loadSparse e o a = .ok (.successfulReturn, o')) :
    ∃ L R S T, copyCSC L = .ok S ∧ copyCSC R = .ok T ∧ a.L = some L ∧ a.R = some R ∧ Cnt.symProdSparse S T = symProdSparse S T ∧
      ∃ Q' C, o'.d.Qs = some Q' ∧ o'.d.Cs = some C ∧ ∀ rho idx, Cnt.mergeQC rho Q' C n.nV idx = mergeQC rho Q' C n.nV idx := by
  obtain ⟨Q', L, R, C, hQ', hL, hR, iQ, iL, iR, hCs, hCi, h'⟩ := loadSparse_ok (e := e) hn hV hC hf
  rw [hQ] at hQ'
  injection hQ' with hQ'
  subst hQ'
  rcases h' with ⟨_, _, h'⟩ | ⟨_, _, _, h'⟩ | ⟨_, _, _, _, h'⟩ | ⟨_, _, g, c, hg, lg, hc', h'⟩
  · rw [h'] at h; injection h with h; injection h with h _; cases h
  · rw [h'] at h; injection h with h; injection h with h _; cases h
  · rw [h'] at h; injection h with h; injection h with h _; cases h
  · rw [h'] at h
    injection h with h
    injection h with _ h
    subst h
    obtain ⟨ic, sc⟩ := hCi c hc'
    refine ⟨L, R, L.trim, R.trim, copyCSC_ok iL.1, copyCSC_ok iR.1, hL, hR, ?_, Q.trim, c, rfl, rfl, fun rho idx => ?_⟩
    · obtain ⟨h1, h2⟩ := C60_count_sym hCs
      rw [show L.trim.n = n.nV from iL.2.2] at h2
      rw [h1, if_pos (h2.trans hs), hCs]
    · obtain ⟨s, h1, h2, h3, h4⟩ := C60_count_merge rho iQ.trim.1.toValidPtr ic.1.toValidPtr iQ.2.2 ic.2.2 idx
      rw [h2, if_pos, h1]
      rcases hc with hc | hc
      · exact (h4 iQ.trim.1 ic.1 (hc.trim iQ.1) sc iQ.2.1 ic.2.1).trans hs
      · have hz : nnz a.Q = Q.trim.P n.nV := by
          rw [hQ, nnz, iQ.2.2]
          rfl
        have := Cnt.nnz_le ic.1 sc
        rw [ic.2.1, ic.2.2] at this
        omega

/-- Square dense matrices with `nV²` in range: neither their conversion (`switchToSparseMode`) nor the merge of the results overflows. -/
theorem C60_count_switched {Q C : List α} {nV : Nat} (hQ : Q.length = nV * nV) (hC : C.length = nV * nV) (hs : nV * nV ≤ maxInt) :
    ∃ S T, Cnt.dnsToCsc Q nV nV = .ok S ∧ Cnt.dnsToCsc C nV nV = .ok T ∧ dnsToCsc Q nV nV = .ok S ∧ dnsToCsc C nV nV = .ok T ∧
      ∀ rho idx, Cnt.mergeQC rho S T nV idx = mergeQC rho S T nV idx := by
  obtain ⟨S, h1, h2, h3, h4, h5, _⟩ := dns_csc_dns Q nV nV hQ
  obtain ⟨T, k1, k2, k3, k4, k5, _⟩ := dns_csc_dns C nV nV hC
  refine ⟨S, T, (C60_count_dns_fits hQ hs).trans h1, (C60_count_dns_fits hC hs).trans k1, h1, k1, fun rho idx => ?_⟩
  obtain ⟨s, e1, e2, -, e4⟩ := C60_count_merge rho h2.toValidPtr k2.toValidPtr h5 k5 idx
  rw [e2, if_pos ((e4 h2 k2 h3 k3 h4 k4).trans hs), e1]

/-- the overflow happens: a dense matrix of ones with `2^16` rows and `2^15` columns -/
example (h : ((zero <. (one : α)) || ((one : α) <. zero)) = true) :
    Cnt.dnsToCsc (List.replicate (2 ^ 16 * 2 ^ 15) (one : α)) (2 ^ 16) (2 ^ 15) = .error .overflow := by
  refine C60_count_dns_full List.length_replicate (by unfold maxInt; norm_num) fun v hv => ?_
  rw [List.eq_of_mem_replicate hv]
  exact h

/-- the hypothesis of this overflow holds in exact arithmetic -/
example : ((zero <. (one : Ext ℚ)) || ((one : Ext ℚ) <. zero)) = true := by decide +kernel

/-- the product of `sL` and `sR` has two entries, with the checked counter too -/
example : ∃ S : CSC (Ext ℚ), Cnt.symProdSparse Ex.sL.emb Ex.sR.emb = .ok (some S) ∧ S.i = [1, 0] := by
  refine ⟨createCSC 2 2 2 (emb [1, 1]) [1, 0] [0, 1, 2], ?_, rfl⟩
  decide +kernel

/-- the upper triangle of a full matrix has three entries, with the checked counter too -/
example : Cnt.copyCSCUpper (α := Ext ℚ) ⟨2, 2, 4, [0, 2, 4], [0, 1, 0, 1], emb [1, 2, 3, 4]⟩ =
    .ok ⟨2, 2, 3, [0, 1, 3], [0, 0, 1], emb [1, 3, 4]⟩ := by decide +kernel

/-- merging a diagonal and an antidiagonal matrix fills all four entries: the bound `nV²` is attained -/
example : (Cnt.mergeQC (one : Ext ℚ) Ex.sQ.emb ⟨2, 2, 2, [0, 1, 2], [1, 0], emb [1, 1]⟩ 2 []).map (fun s => (s.1.rows, s.2)) =
    .ok ([0, 1, 0, 1], [1, 2]) := by decide +kernel

/-- `C60_count_loaded` applies to the warm-up example -/
example : ∃ (o' : Obj (Ext ℚ)) (Q' C : CSC (Ext ℚ)), loadSparse Ex.env Ex.obj0 Ex.sargs = .ok (.successfulReturn, o') ∧
    o'.d.Qs = some Q' ∧ o'.d.Cs = some C ∧ ∀ rho idx, Cnt.mergeQC rho Q' C 2 idx = mergeQC rho Q' C 2 idx := by
  have h1 : (loadSparse Ex.env Ex.obj0 Ex.sargs).map (·.1) = .ok .successfulReturn := by decide +kernel
  cases r : loadSparse Ex.env Ex.obj0 Ex.sargs with
  | error f => rw [r] at h1; cases h1
  | ok p =>
    obtain ⟨c, o'⟩ := p
    rw [r] at h1
    injection h1 with h1
    dsimp only at h1
    subst h1
    obtain ⟨_, _, _, _, _, _, _, _, _, Q', C, h2, h3, h4⟩ := C60_count_loaded (n := ⟨2, 0, 1⟩) (Q := Ex.sQ.emb) rfl (by decide) (by decide)
      Ex.sargs_fits rfl (by decide) (.inl (Ex.sorted_of_short Ex.sQ (by decide)).emb) r
    exact ⟨o', Q', C, rfl, h2, h3, h4⟩

end LCQ
