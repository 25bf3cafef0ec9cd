import Verif.Model.MatlabScripts
import Verif.Lemmas.Circle
import Verif.Lemmas.SymSparse
import Verif.Props.MatlabSparse

/-!
# The matrices of the example scripts
-/

namespace LCQ.Script
open Scalar
open scoped Matrix

section anyArith
variable {α : Type} [Scalar α]

/-- the matrix `A` has `m` rows, `n` columns and the entries `F` -/
structure Has (m n : Nat) (F : Nat → Nat → α) (A : Arr α) : Prop where
  rows : A.m = m
  cols : A.n = n
  ent : Circle.MatHas n m (fun j i => F i j) A.data

omit [Scalar α] in
theorem Has.congr {m n : Nat} {F G : Nat → Nat → α} {A : Arr α} (h : Has m n F A) (he : ∀ i < m, ∀ j < n, F i j = G i j) : Has m n G A :=
  ⟨h.rows, h.cols, h.ent.congr fun j hj i hi => he i hi j hj⟩

omit [Scalar α] in
theorem Has.put {m n : Nat} {F : Nat → Nat → α} {A : Arr α} (h : Has m n F A) {i j : Nat} (hi : i < m) (hj : j < n) (v : α) :
    ∃ A', put A (i + 1) (j + 1) v = .ok A' ∧ Has m n (fun a b => if a = i ∧ b = j then v else F a b) A' := by
  obtain ⟨l, hl, h'⟩ := h.ent.write hj hi v
  refine ⟨{ A with data := l }, ?_, h.rows, h.cols, h'.congr fun b _ a _ => by simp only [and_comm]⟩
  rw [Script.put, if_pos ⟨by omega, by rw [h.rows]; omega, by omega, by rw [h.cols]; omega⟩]
  simp only [Nat.add_sub_cancel, h.rows, hl, ok_bind]

theorem zeros_has (m n : Nat) : Has m n (fun _ _ => (zero : α)) (zeros m n) :=
  ⟨rfl, rfl, Circle.MatHas.zeros n m⟩

theorem ones_has (m n : Nat) : Has m n (fun _ _ => (one : α)) (ones m n) :=
  ⟨rfl, rfl, by simp [ones], fun i hi j hj => by simp [ones, Circle.idx_lt hi hj]⟩

theorem scaledEye_has (v : α) (n : Nat) : Has n n (fun i j => v *. (if i = j then one else zero)) (scaledEye v n) := by
  refine ⟨rfl, rfl, by simp [scaledEye], fun i hi j hj => ?_⟩
  have hn : 0 < n := by omega
  have h1 : (i * n + j) / n = i := by rw [Nat.mul_comm, Nat.mul_add_div hn, Nat.div_eq_of_lt hj, Nat.add_zero]
  have h2 : (i * n + j) % n = j := by rw [Nat.mul_comm, Nat.mul_add_mod, Nat.mod_eq_of_lt hj]
  simp only [scaledEye]
  rw [List.getElem?_map, List.getElem?_range (Circle.idx_lt hi hj)]
  simp only [Option.map_some, h1, h2, eq_comm]

omit [Scalar α] in
/-- a full matrix -/
theorem Has.full {m n : Nat} {F : Nat → Nat → α} {A : Arr α} (h : Has m n F A) : A.mx = full (Matrix.of fun (i : Fin m) (j : Fin n) => F i j) := by
  obtain ⟨A1, A2, d⟩ := A
  obtain ⟨h1, h2, h3, h4⟩ := h
  dsimp only at h1 h2 h3 h4
  subst h1 h2
  show Mx.dbl A1 A2 d = Mx.dbl A1 A2 (colMajor (Matrix.of fun (i : Fin A1) (j : Fin A2) => F i j))
  congr 1
  apply List.ext_getElem?
  intro t
  by_cases ht : t < A2 * A1
  · have h0 : 0 < A1 := Nat.pos_of_ne_zero (by rintro rfl; simp at ht)
    have e : t / A1 * A1 + t % A1 = t := by rw [Nat.mul_comm]; exact Nat.div_add_mod t A1
    have hq : t / A1 < A2 := (Nat.div_lt_iff_lt_mul h0).mpr ht
    have g1 := h4 (t / A1) hq (t % A1) (Nat.mod_lt _ h0)
    have g2 := colMajor_get (Matrix.of fun (i : Fin A1) (j : Fin A2) => F i j) ⟨t % A1, Nat.mod_lt _ h0⟩ ⟨t / A1, hq⟩
    rw [e] at g1 g2
    rw [g1, g2]
    rfl
  · rw [List.getElem?_eq_none (by omega), List.getElem?_eq_none (by simp; omega)]

omit [Scalar α] in
/-- a column -/
theorem Has.column {n : Nat} {F : Nat → Nat → α} {A : Arr α} (h : Has n 1 F A) : A.mx = column (some fun i : Fin n => F i 0) := by
  obtain ⟨A1, A2, d⟩ := A
  obtain ⟨h1, h2, h3, h4⟩ := h
  dsimp only at h1 h2 h3 h4
  subst h1 h2
  show Mx.dbl A1 1 d = Mx.dbl A1 1 (List.ofFn fun i : Fin A1 => F i 0)
  congr 1
  apply List.ext_getElem?
  intro t
  by_cases ht : t < A1
  · have g := h4 0 (by omega) t ht
    rw [Nat.zero_mul, Nat.zero_add] at g
    rw [g]
    simp [ht]
  · rw [List.getElem?_eq_none (by rw [h3]; omega), List.getElem?_eq_none (by simp; omega)]

omit [Scalar α] in
theorem Has.len {n : Nat} {F : Nat → Nat → α} {A : Arr α} (h : Has n 1 F A) : A.data.length = n := by
  rw [h.ent.1, Nat.one_mul]

/-! ## `sparse` -/

theorem sparse_eq (A : Arr α) : A.sparse = cscOf A.m A.n A.kept := rfl

/-- the entries kept by `sparse` -/
def keep (m : Nat) (F : Nat → Nat → α) (j : Nat) : List (Int × α) :=
  (List.range m).filterMap fun i => if isZero (F i j) then none else some ((i : Int), F i j)

theorem cscOf_congr {β : Type} {m n : Nat} {E E' : Nat → List (Int × β)} (h : ∀ c < n, E c = E' c) : cscOf m n E = cscOf m n E' := by
  have : ∀ j ≤ n, ents E j = ents E' j := by
    intro j hj
    induction j with
    | zero => rfl
    | succ j ih => rw [ents_succ, ents_succ, ih (by omega), h j (by omega)]
  have ht : tab (n + 1) (fun t => ((ents E t).length : Int)) = tab (n + 1) (fun t => ((ents E' t).length : Int)) := by
    refine List.map_congr_left fun t ht => ?_
    rw [this t (by rw [List.mem_range] at ht; omega)]
  simp only [cscOf, this n (le_refl _), ht]

theorem Has.sparse {m n : Nat} {F : Nat → Nat → α} {A : Arr α} (h : Has m n F A) : A.sparse = cscOf m n (keep m F) := by
  rw [sparse_eq]
  obtain ⟨A1, A2, d⟩ := A
  obtain ⟨h1, h2, h3, h4⟩ := h
  dsimp only at h1 h2 h3 h4
  subst h1 h2
  refine cscOf_congr fun c hc => ?_
  simp only [Arr.kept, keep]
  refine List.filterMap_congr fun i hi => ?_
  rw [List.mem_range] at hi
  rw [h4 c hc i hi]

theorem Has.valid {m n : Nat} {F : Nat → Nat → α} {A : Arr α} (h : Has m n F A) : A.sparse.Is m n := by
  rw [h.sparse]
  refine ⟨cscOf_valid m n _ ?_, rfl, rfl⟩
  intro c _ e he
  simp only [keep, List.mem_filterMap, List.mem_range] at he
  obtain ⟨i, hi, he⟩ := he
  split at he
  · cases he
  · injection he with he
    subst he
    dsimp only
    omega

theorem keep_sorted (m : Nat) (F : Nat → Nat → α) (j : Nat) : (keep m F j).Pairwise fun a b => a.1 < b.1 := by
  rw [keep, List.pairwise_filterMap]
  refine List.pairwise_lt_range.imp ?_
  intro a b hab x hx y hy
  split at hx
  · cases hx
  · split at hy
    · cases hy
    · cases hx
      cases hy
      dsimp only
      omega

theorem Has.sorted {m n : Nat} {F : Nat → Nat → α} {A : Arr α} (h : Has m n F A) : A.sparse.Sorted := by
  rw [h.sparse]
  exact cscOf_sorted m n _ fun c _ => keep_sorted m F c

end anyArith

section exact
open Ext
variable {K : Type} [Field K] [LinearOrder K]

theorem isZero_fin (v : K) : isZero (fin v) = decide (v = 0) := by
  rw [Bool.eq_iff_iff]
  simp only [isZero, zero_fin, Bool.and_eq_true, decide_eq_true_eq, fin_le]
  exact ⟨fun h => le_antisymm h.1 h.2, fun h => ⟨h.le, h.ge⟩⟩

omit [LinearOrder K] in
theorem sum_filterMap {β γ : Type} (f : β → Option γ) (g : γ → K) (l : List β) :
    ((l.filterMap f).map g).sum = (l.map fun b => ((f b).map g).getD 0).sum := by
  induction l with
  | nil => rfl
  | cons b l ih =>
    rw [List.filterMap_cons]
    cases h : f b with
    | none => simp [h, ih]
    | some c => simp [h, ih]

omit [LinearOrder K] in
theorem sum_range_map (f : Nat → K) (m : Nat) : ((List.range m).map f).sum = ∑ i ∈ Finset.range m, f i := by
  induction m with
  | zero => rfl
  | succ m ih => rw [List.range_succ, List.map_append, List.sum_append, ih, Finset.sum_range_succ]; simp

/-- exact arithmetic: `sparse` keeps the matrix -/
theorem Has.den {m n : Nat} {F : Nat → Nat → Ext K} {A : Arr (Ext K)} (h : Has m n F A) {G : Matrix (Fin m) (Fin n) K}
    (hF : ∀ (i : Fin m) (j : Fin n), F i j = fin (G i j)) : ∃ S : CSC K, A.sparse = S.emb ∧ S.Sorted ∧ S.den m n = G := by
  let E : Nat → List (Int × K) := fun c => (List.range m).filterMap fun i =>
    if hi : i < m ∧ c < n then (if G ⟨i, hi.1⟩ ⟨c, hi.2⟩ = 0 then none else some ((i : Int), G ⟨i, hi.1⟩ ⟨c, hi.2⟩)) else none
  have hE : A.sparse = (cscOf m n E).emb := by
    rw [cscOf_emb, h.sparse]
    refine cscOf_congr fun c hc => ?_
    simp only [keep, E, List.map_filterMap]
    refine List.filterMap_congr fun i hi => ?_
    rw [List.mem_range] at hi
    have := hF ⟨i, hi⟩ ⟨c, hc⟩
    dsimp only at this
    rw [this, isZero_fin, dif_pos ⟨hi, hc⟩]
    by_cases h0 : G ⟨i, hi⟩ ⟨c, hc⟩ = 0 <;> simp [h0]
  refine ⟨cscOf m n E, hE, ?_, ?_⟩
  · refine cscOf_sorted m n _ fun c _ => ?_
    simp only [E]
    rw [List.pairwise_filterMap]
    refine List.pairwise_lt_range.imp ?_
    intro a b hab x hx y hy
    split at hx
    · split at hx
      · cases hx
      · split at hy
        · split at hy
          · cases hy
          · cases hx
            cases hy
            dsimp only
            omega
        · cases hy
    · cases hx
  · funext r c
    rw [cscOf_den, sum_filterMap, sum_range_map]
    rw [Finset.sum_eq_single r.1]
    · rw [dif_pos ⟨r.2, c.2⟩]
      by_cases h0 : G r c = 0 <;> simp [h0]
    · intro i _ hi
      split
      · split
        · rfl
        · simp [hi]
      · rfl
    · intro hr
      exact absurd (Finset.mem_range.mpr r.2) hr

end exact

end LCQ.Script
