import Verif.Spec.RoundingSparse
import Verif.Lemmas.Drift
import Verif.Lemmas.LoadSparse

/-!
# Rounding errors of products with compressed-column matrices
-/

set_option linter.unusedSectionVars false

namespace LCQ
open Scalar
open scoped Matrix

/-! ## sums with gaps -/

section
variable {α : Type} [Scalar α]

/-- sequential sum, where some terms may be missing -/
def ofacc (a : α) : Nat → (Nat → Option α) → α
  | 0, _ => a
  | p + 1, f => match f p with
    | none => ofacc a p f
    | some c => ofacc a p f +. c

theorem facc_ofacc (a : α) (p : Nat) (f : Nat → α) : facc a p f = ofacc a p fun i => some (f i) := by
  induction p with
  | zero => rfl
  | succ p ih => rw [facc, ofacc, ih]

/-! ## stored entries -/

variable {S : CSC α} {m p : Nat}

theorem CSC.Is.I_lt (h : S.Is m p) {j : Nat} (hj : j < p) {k : Nat} (hk : k < S.P (j + 1)) : S.I k < m := by
  obtain ⟨hv, hm, hn⟩ := h
  have := hv.I_lt (hv.lt_nnz (j := j) (k := k) (by omega) hk)
  omega

theorem I_inj (h : S.Is m p) (hs : S.Sorted) {j : Nat} (hj : j < p) {k l : Nat} (hk : S.P j ≤ k) (hk' : k < S.P (j + 1))
    (hl : S.P j ≤ l) (hl' : l < S.P (j + 1)) (e : S.I k = S.I l) : k = l := by
  obtain ⟨hv, hm, hn⟩ := h
  have r1 := hv.rows _ (hv.lt_nnz (j := j) (k := k) (by omega) hk')
  have r2 := hv.rows _ (hv.lt_nnz (j := j) (k := l) (by omega) hl')
  unfold CSC.I at e
  rcases Nat.lt_trichotomy k l with h1 | h1 | h1
  · have := hs j (by omega) k l hk h1 hl'
    omega
  · exact h1
  · have := hs j (by omega) l k hl h1 hk'
    omega

theorem entry_at (h : S.Is m p) (hs : S.Sorted) {j : Nat} (hj : j < p) {k : Nat} (hk : S.P j ≤ k) (hk' : k < S.P (j + 1)) :
    S.entry (S.I k) j = some (gt S.x k) := by
  unfold CSC.entry
  have : (List.range' (S.P j) (S.P (j + 1) - S.P j)).find? (fun l => S.I l = S.I k) = some k := by
    cases hf : (List.range' (S.P j) (S.P (j + 1) - S.P j)).find? (fun l => S.I l = S.I k) with
    | none =>
      rw [List.find?_eq_none] at hf
      have := hf k (by rw [List.mem_range'_1]; omega)
      simp at this
    | some l =>
      have h1 := List.mem_of_find?_eq_some hf
      have h2 := List.find?_some hf
      rw [List.mem_range'_1] at h1
      rw [I_inj h hs hj (by omega) (by omega) hk hk' (of_decide_eq_true h2)]
  rw [this]
  rfl

theorem entry_miss {i j : Nat} (h : ∀ k, S.P j ≤ k → k < S.P (j + 1) → S.I k ≠ i) : S.entry i j = none := by
  unfold CSC.entry
  rw [Option.map_eq_none_iff, List.find?_eq_none]
  intro k hk
  rw [List.mem_range'_1] at hk
  simpa using h k (by omega) (by omega)

/-- the contents of a cell after some entries of a column -/
theorem scatCol_miss (b : List α) (r j : Nat) (a : α) (cnt : Nat) (h : ∀ k < cnt, S.I (S.P j + k) ≠ r) :
    scatCol S b r j a cnt = a := by
  induction cnt with
  | zero => rfl
  | succ c ih => rw [scatCol, if_neg (h c (by omega)), ih fun k hk => h k (by omega)]

theorem scatCol_hit (h : S.Is m p) (hs : S.Sorted) (b : List α) (a : α) {j : Nat} (hj : j < p) {k : Nat}
    (hk : S.P j + k < S.P (j + 1)) (cnt : Nat) (hc : k < cnt) (hc' : S.P j + cnt ≤ S.P (j + 1)) :
    scatCol S b (S.I (S.P j + k)) j a cnt = a +. gt S.x (S.P j + k) *. gt b j := by
  have hne : ∀ l, S.P j + l < S.P (j + 1) → l ≠ k → S.I (S.P j + l) ≠ S.I (S.P j + k) := by
    intro l hl hlk e
    have := I_inj h hs hj (by omega) hl (by omega) hk e
    omega
  induction cnt with
  | zero => omega
  | succ c ih =>
    rw [scatCol]
    by_cases e : c = k
    · subst e
      rw [if_pos rfl, scatCol_miss]
      intro l hl
      exact hne l (by omega) (by omega)
    · rw [if_neg (hne c (by omega) e), ih (by omega) (by omega)]

theorem scat_ofacc (h : S.Is m p) (hs : S.Sorted) (b : List α) (r : Nat) {j : Nat} (hj : j ≤ p) :
    scat S b r j = ofacc zero j fun c => (S.entry r c).map (· *. gt b c) := by
  induction j with
  | zero => rfl
  | succ j ih =>
    rw [scat, ofacc, ih (by omega)]
    by_cases e : ∃ k, S.P j + k < S.P (j + 1) ∧ S.I (S.P j + k) = r
    · obtain ⟨k, hk, rfl⟩ := e
      rw [scatCol_hit h hs b _ (by omega) hk _ (by omega) (by omega), entry_at h hs (by omega) (by omega) hk]
      rfl
    · have hm : ∀ k, S.P j ≤ k → k < S.P (j + 1) → S.I k ≠ r := by
        intro k hk hk' he
        refine e ⟨k - S.P j, by omega, ?_⟩
        rw [show S.P j + (k - S.P j) = k by omega, he]
      rw [scatCol_miss _ _ _ _ _ fun k hk => hm _ (by omega) (by omega), entry_miss hm]
      rfl

/-- the products which `colDot` adds up -/
theorem colDot_ofacc {X Y : CSC α} (hX : X.Is m p) (hY : Y.Is m p) (sY : Y.Sorted) {i j : Nat} (hi : i < p) (hj : j < p)
    (a : α) : colDot X Y i j a = .ok (ofacc a (X.P (i + 1) - X.P i) fun k =>
      (Y.entry (X.I (X.P i + k)) j).map (gt X.x (X.P i + k) *. ·)) := by
  obtain ⟨vX, mX, nX⟩ := hX
  obtain ⟨vY, mY, nY⟩ := id hY
  unfold colDot
  rw [vX.rd_p (by omega), ok_bind, vX.rd_p (by omega), ok_bind, loopI_nat]
  apply loop_eq (fun c => ofacc a c fun k => (Y.entry (X.I (X.P i + k)) j).map (gt X.x (X.P i + k) *. ·)) _ _ _ rfl
  intro k hk
  have hkk := vX.lt_nnz (k := X.P i + k) (j := i) (by omega) (by omega)
  rw [vX.rd_i hkk, ok_bind, vY.rd_p (by omega), ok_bind, vY.rd_p (by omega), ok_bind, ofacc]
  rcases getIndexOfIn_ok Y vY.toValidPtr (X.I (X.P i + k)) (j := j) (by omega) with ⟨l, h1, h2, h3, h4⟩ | ⟨h3, h4⟩
  · have e : Y.entry (X.I (X.P i + k)) j = some (gt Y.x l) := by
      rw [← entry_at hY sY hj h1 h2]
      congr 1
      unfold CSC.I at h3 ⊢
      omega
    rw [h4, ok_bind, if_pos (by omega), vX.rd_x hkk, ok_bind, vY.rd_x (vY.lt_nnz (by omega) h2), ok_bind, e]
    rfl
  · have e : Y.entry (X.I (X.P i + k)) j = none := by
      refine entry_miss fun l hl hl' he => h3 sY l hl hl' ?_
      have := (vY.rows _ (vY.lt_nnz (j := j) (k := l) (by omega) hl')).1
      unfold CSC.I at he ⊢
      omega
    rw [h4, ok_bind, if_neg (by simp), e]
    rfl

end

/-! ## approximations -/

variable {α : Type} [Scalar α] {K : Type} [Field K] [LinearOrder K] [IsStrictOrderedRing K] {u t : K} {F : Rounds α K u t}

/-- an approximation of `v` approximates a number near `v` -/
theorem Apx.shift {k : Nat} {a : α} {v m w l : K} (h : Apx F k a v m) (hw : |w| ≤ l) (he : |w| ≤ ((1 + u) ^ k - 1) * l) :
    Apx F k a (v + w) (m + l) := by
  refine ⟨(abs_add_le _ _).trans (add_le_add h.1 hw), fun x hx => ?_⟩
  have h1 := h.2 x hx
  have h2 : |x - (v + w)| ≤ |x - v| + |w| := by
    rw [show x - (v + w) = (x - v) - w by ring]
    exact abs_sub _ _
  rw [mul_add]
  linarith

theorem Apx.of_zero {k : Nat} {v m : K} (h : Apx F k Scalar.zero v m) : |v| ≤ ((1 + u) ^ k - 1) * m := by
  have := h.2 0 F.zero
  rwa [zero_sub, abs_neg] at this

theorem Apx.skip {k : Nat} {a : α} {v m w l : K} (h : Apx F k a v m) (hw : Apx F k Scalar.zero w l) :
    Apx F k a (v + w) (m + l) := h.shift hw.1 hw.of_zero

theorem Apx.ofacc {k : Nat} {a : α} {v m : K} {f : Nat → Option α} {g h : Nat → K} (h0 : Apx F k a v m) {p : Nat}
    (hf : ∀ i < p, Apx F k ((f i).getD Scalar.zero) (g i) (h i)) :
    Apx F (k + p) (ofacc a p f) (v + ∑ i ∈ Finset.range p, g i) (m + ∑ i ∈ Finset.range p, h i) := by
  induction p with
  | zero => simpa [LCQ.ofacc] using h0
  | succ p ih =>
    have ih := ih fun i hi => hf i (by omega)
    have hp := hf p (by omega)
    rw [LCQ.ofacc, Finset.sum_range_succ, Finset.sum_range_succ, ← add_assoc v, ← add_assoc m]
    cases e : f p with
    | none =>
      rw [e] at hp
      exact (ih.depth (by omega)).skip (hp.depth (j := k + (p + 1)) (by omega))
    | some c =>
      rw [e] at hp
      exact ih.add (hp.depth (by omega))

/-- sums over the stored entries of a column -/
theorem col_apx {S : CSC α} {m p : Nat} (hS : S.Is m p) (hs : S.Sorted) {j : Nat} (hj : j < p) {k : Nat} {a : α} {v l : K}
    (h0 : Apx F k a v l) {f : Nat → Option α} {g h : Fin m → K}
    (hf : ∀ c (hc : S.P j + c < S.P (j + 1)), Apx F k ((f c).getD Scalar.zero) (g ⟨S.I (S.P j + c), hS.I_lt hj hc⟩)
      (h ⟨S.I (S.P j + c), hS.I_lt hj hc⟩))
    (hz : ∀ i : Fin m, S.entry i j = none → Apx F k Scalar.zero (g i) (h i)) :
    Apx F (k + m) (ofacc a (S.P (j + 1) - S.P j) f) (v + ∑ i, g i) (l + ∑ i, h i) := by
  set cnt := S.P (j + 1) - S.P j with hcnt
  set e : Nat → Nat := fun c => S.I (S.P j + c) with he
  have hinj : Set.InjOn e (Finset.range cnt) := by
    intro c hc c' hc' hcc
    simp only [Finset.coe_range, Set.mem_Iio] at hc hc'
    have := I_inj hS hs hj (k := S.P j + c) (l := S.P j + c') (by omega) (by omega) (by omega) (by omega) hcc
    omega
  have hsub : (Finset.range cnt).image e ⊆ Finset.range m := by
    intro r hr
    simp only [Finset.mem_image, Finset.mem_range] at hr ⊢
    obtain ⟨c, hc, rfl⟩ := hr
    exact hS.I_lt hj (by omega)
  have hle : cnt ≤ m := by
    have := Finset.card_le_card hsub
    rw [Finset.card_image_of_injOn hinj, Finset.card_range, Finset.card_range] at this
    exact this
  let ext : (Fin m → K) → Nat → K := fun g r => if hr : r < m then g ⟨r, hr⟩ else 0
  have hsum : ∀ g : Fin m → K, ∑ i, g i = ∑ c ∈ Finset.range cnt, ext g (e c) +
      ∑ r ∈ Finset.range m \ (Finset.range cnt).image e, ext g r := by
    intro g
    rw [← Finset.sum_image (f := ext g) hinj, add_comm, Finset.sum_sdiff hsub, Finset.sum_range]
    exact Finset.sum_congr rfl fun i _ => by simp [ext]
  have h1 := h0.ofacc (p := cnt) (f := f) (g := fun c => ext g (e c)) (h := fun c => ext h (e c)) (by
    intro c hc
    have hlt : S.I (S.P j + c) < m := hS.I_lt hj (by omega)
    simp only [ext, he, dif_pos hlt]
    exact hf c (by omega))
  rw [hsum g, hsum h, ← add_assoc, ← add_assoc]
  have hrest : ∀ r ∈ Finset.range m \ (Finset.range cnt).image e, Apx F (k + m) Scalar.zero (ext g r) (ext h r) := by
    intro r hr
    simp only [Finset.mem_sdiff, Finset.mem_range, Finset.mem_image, not_exists, not_and] at hr
    have : S.entry r j = none := by
      refine entry_miss fun c hc hc' hcc => hr.2 (c - S.P j) (by omega) ?_
      simp only [he]
      rw [show S.P j + (c - S.P j) = c by omega, hcc]
    simp only [ext, dif_pos hr.1]
    exact (hz ⟨r, hr.1⟩ this).depth (by omega)
  refine (h1.depth (j := k + m) (by omega)).shift ?_ ?_
  · exact (Finset.abs_sum_le_sum_abs _ _).trans (Finset.sum_le_sum fun r hr => (hrest r hr).1)
  · rw [Finset.mul_sum]
    exact (Finset.abs_sum_le_sum_abs _ _).trans (Finset.sum_le_sum fun r hr => (hrest r hr).of_zero)

/-! ## matrices -/

/-- the entries of a compressed-column matrix approximate a matrix -/
structure AMatS (F : Rounds α K u t) (k : Nat) (S : CSC α) (m p : Nat) (B l : Fin m → Fin p → K) : Prop where
  is : S.Is m p
  sorted : S.Sorted
  ap : ∀ (i : Fin m) (j : Fin p), Apx F k ((S.entry i j).getD Scalar.zero) (B i j) (l i j)

theorem Apx.zero_mul {k : Nat} {w l x y : K} (h : Apx F k Scalar.zero w l) (hy : |x| ≤ y) {i : Nat} (hi : k ≤ i) :
    Apx F i Scalar.zero (w * x) (l * y + t) := by
  have ht := F.t0
  have h0 := h.m0
  have h1 : |w * x| ≤ ((1 + u) ^ k - 1) * l * y := by
    rw [abs_mul]
    refine mul_le_mul h.of_zero hy (abs_nonneg _) (mul_nonneg ?_ h0)
    linarith [pow1 F k]
  have hy0 := (abs_nonneg _).trans hy
  have h2 : |w * x| ≤ l * y := by
    rw [abs_mul]
    exact mul_le_mul h.1 hy (abs_nonneg _) h0
  refine (show Apx F k Scalar.zero (w * x) (l * y) from ⟨h2, fun z hz => ?_⟩).mono hi (by linarith)
  rw [F.zero] at hz
  injection hz with hz
  rw [← hz, zero_sub, abs_neg, ← mul_assoc]
  exact h1

variable {k : Nat} {S : CSC α} {m p : Nat} {B l : Fin m → Fin p → K}

theorem AMatS.at (h : AMatS F k S m p B l) {j : Fin p} {c : Nat} (hc : S.P j + c < S.P (j + 1)) :
    Apx F k (gt S.x (S.P j + c)) (B ⟨S.I (S.P j + c), h.is.I_lt j.2 hc⟩ j) (l ⟨S.I (S.P j + c), h.is.I_lt j.2 hc⟩ j) := by
  have := h.ap ⟨S.I (S.P j + c), h.is.I_lt j.2 hc⟩ j
  rwa [entry_at h.is h.sorted j.2 (by omega) hc] at this

theorem AMatS.miss (h : AMatS F k S m p B l) {i : Fin m} {j : Fin p} (he : S.entry i j = none) :
    Apx F k Scalar.zero (B i j) (l i j) := by
  have := h.ap i j
  rwa [he] at this

/-- a column of the matrix times a vector -/
theorem AMatS.colSum (h : AMatS F k S m p B l) {x : List α} {w : Fin m → K}
    (hx : ∀ i : Fin m, Apx F 0 (gt x i) (w i) |w i|) (j : Fin p) :
    Apx F (k + 1 + m) (colSum S x j) (∑ i, B i j * w i) (∑ i, (l i j * |w i| + t)) := by
  unfold LCQ.colSum
  rw [facc_ofacc]
  have := col_apx h.is h.sorted j.2 ((Apx.zero F).depth (Nat.zero_le (k + 1)))
    (f := fun c => some (gt S.x (S.P j + c) *. gt x (S.I (S.P j + c)))) (g := fun i => B i j * w i)
    (h := fun i => l i j * |w i| + t) (fun c hc => (h.at hc).mul' (hx _) (by omega))
    (fun i hi => (h.miss hi).zero_mul le_rfl (by omega))
  rwa [zero_add, zero_add] at this

/-- the same with the factors in the other order, added to something -/
theorem AMatS.addTMul (h : AMatS F k S m p B l) {x : List α} {w : Fin m → K}
    (hx : ∀ i : Fin m, Apx F 0 (gt x i) (w i) |w i|) (j : Fin p) {q : Nat} {a : α} {v z : K} (h0 : Apx F q a v z) (hq : k + 1 ≤ q) :
    Apx F (q + m) (facc a (S.P (j + 1) - S.P j) fun c => gt x (S.I (S.P j + c)) *. gt S.x (S.P j + c))
      (v + ∑ i, B i j * w i) (z + ∑ i, (l i j * |w i| + t)) := by
  rw [facc_ofacc]
  refine col_apx h.is h.sorted j.2 h0
    (f := fun c => some (gt x (S.I (S.P j + c)) *. gt S.x (S.P j + c))) (g := fun i => B i j * w i)
    (h := fun i => l i j * |w i| + t) (fun c hc => ?_) (fun i hi => (h.miss hi).zero_mul le_rfl (by omega))
  refine ((hx ⟨_, h.is.I_lt j.2 hc⟩).mul' (h.at hc) (by omega)).congr (mul_comm _ _) ?_
  rw [mul_comm]

/-- a row of the matrix times a vector -/
theorem AMatS.scat (h : AMatS F k S m p B l) {x : List α} {w : Fin p → K}
    (hx : ∀ i : Fin p, Apx F 0 (gt x i) (w i) |w i|) (i : Fin m) :
    Apx F (k + 1 + p) (scat S x i p) (∑ j, B i j * w j) (∑ j, (l i j * |w j| + t)) := by
  rw [scat_ofacc h.is h.sorted x i (le_refl p)]
  have := ((Apx.zero F).depth (Nat.zero_le (k + 1))).ofacc (p := p) (f := fun c => (S.entry i c).map (· *. gt x c))
    (g := fun c => if hc : c < p then B i ⟨c, hc⟩ * w ⟨c, hc⟩ else 0)
    (h := fun c => if hc : c < p then l i ⟨c, hc⟩ * |w ⟨c, hc⟩| + t else 0) (by
      intro c hc
      rw [dif_pos hc, dif_pos hc]
      have ha := h.ap i ⟨c, hc⟩
      dsimp only at ha
      cases e : S.entry i c with
      | none =>
        rw [e] at ha
        exact ha.zero_mul le_rfl (by omega)
      | some y =>
        rw [e] at ha
        exact ha.mul' (hx ⟨c, hc⟩) (by omega))
  rw [Finset.sum_range, Finset.sum_range] at this
  simpa using this

end LCQ
