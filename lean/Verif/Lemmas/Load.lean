import Verif.Spec.Problem
import Verif.Lemmas.Dense

/-!
# Closed forms of the load functions
-/

set_option linter.unusedSectionVars false

namespace LCQ
open Scalar

variable {α : Type} [Scalar α]

/-! ## overwriting part of an array -/

/-- `M` with the entries `off, ..., off+i-1` replaced by the first `i` entries of `b` -/
def ow {β : Type} (off : Nat) (b : List β) (i : Nat) (M : List β) : List β :=
  M.take off ++ b.take i ++ M.drop (off + i)

theorem ow_zero {β : Type} (off : Nat) (b M : List β) : ow off b 0 M = M := by simp [ow]

theorem ow_length {β : Type} {off i : Nat} {b M : List β} (hb : i ≤ b.length)
    (hM : off + i ≤ M.length) : (ow off b i M).length = M.length := by
  simp [ow]; omega

theorem ow_get {β : Type} {off i : Nat} {b M : List β} (hb : i ≤ b.length) (hM : off + i ≤ M.length) (k : Nat) :
    (ow off b i M)[k]? = if off ≤ k ∧ k < off + i then b[k - off]? else M[k]? := by
  have l0 : (M.take off).length = off := by simp; omega
  have l1 : (M.take off ++ b.take i).length = off + i := by simp; omega
  unfold ow
  by_cases h1 : k < off
  · rw [if_neg (by omega), List.getElem?_append_left (by omega), List.getElem?_append_left (by omega),
      List.getElem?_take, if_pos h1]
  · by_cases h2 : k < off + i
    · rw [if_pos (by omega), List.getElem?_append_left (by omega), List.getElem?_append_right (by omega), l0,
        List.getElem?_take, if_pos (by omega)]
    · rw [if_neg (by omega), List.getElem?_append_right (by omega), l1, List.getElem?_drop]
      congr 1
      omega

theorem ow_set {β : Type} {off i : Nat} {b M : List β} {v : β} (hb : b[i]? = some v)
    (hM : off + i < M.length) : (ow off b i M).set (off + i) v = ow off b (i + 1) M := by
  have hi : i < b.length := (List.getElem?_eq_some_iff.mp hb).1
  apply List.ext_getElem?
  intro k
  rw [List.getElem?_set, ow_get (by omega) (by omega), ow_get (by omega) (by omega), ow_length (by omega) (by omega)]
  by_cases hk : off + i = k
  · subst hk
    rw [if_pos rfl, if_pos (by omega), if_pos (by omega), ← hb]
    congr 1
    omega
  · rw [if_neg hk]
    by_cases h : off ≤ k ∧ k < off + i
    · rw [if_pos h, if_pos (by omega)]
    · rw [if_neg h, if_neg (by omega)]

theorem rd_some {β : Type} {b : List β} {i : Nat} {v : β} (h : b[i]? = some v) : rd b i = .ok v := by
  unfold rd; rw [h]

theorem loop_ow {β : Type} (b c0 : List β) (off n : Nat) (hb : n ≤ b.length) (hM : off + n ≤ c0.length)
    (body : Nat → List β → M (List β))
    (h : ∀ i < n, ∀ v, b[i]? = some v → ∀ c : List β, c.length = c0.length →
      body i c = .ok (c.set (off + i) v)) :
    loop n body c0 = .ok (ow off b n c0) := by
  apply loop_eq (fun i => ow off b i c0) n body c0 (by simp [ow_zero])
  intro i hi
  have hv : b[i]? = some b[i] := List.getElem?_eq_getElem (by omega)
  rw [h i hi b[i] hv _ (ow_length (by omega) (by omega)), ow_set hv (by omega)]

theorem ow_full {β : Type} {b M : List β} {n : Nat} (hM : M.length = n) : ow 0 b n M = b.take n := by
  simp [ow, hM]

theorem copyN_take {β : Type} {b : List β} {n : Nat} (h : n ≤ b.length) : copyN b n = .ok (b.take n) := by
  unfold copyN; rw [if_pos h]

theorem copyOpt_take {b : Option (List α)} {n : Nat} (h : OptLen b n) :
    copyOpt b n = .ok (b.map (List.take n)) := by
  cases b with
  | none => rfl
  | some v => simp only [copyOpt]; rw [copyN_take (h v rfl), ok_bind]; rfl

theorem orFill_length {b : Option (List α)} {n : Nat} {v : α} (h : OptLen b n) :
    (orFill b n v).length = n := by
  cases b with
  | none => simp [orFill]
  | some w => simp [orFill, h w rfl]

/-! ## linear constraint bounds, stacking -/

theorem fillBound_ok {b : Option (List α)} {nC : Nat} {dflt : α} {fresh : List α} (h : OptLen b nC)
    (hf : nC ≤ fresh.length) : fillBound b nC dflt fresh = .ok (orFill b nC dflt ++ fresh.drop nC) := by
  have hl := orFill_length (v := dflt) h
  have : ow 0 (orFill b nC dflt) nC fresh = orFill b nC dflt ++ fresh.drop nC := by
    simp [ow, List.take_of_length_le (Nat.le_of_eq hl)]
  rw [← this]
  cases b with
  | none =>
    apply loop_ow _ _ 0 nC (by omega) (by omega)
    intro i hi v hv c hc
    rw [wr_ok (by omega)]
    simp only [orFill, List.getElem?_replicate, hi, if_true] at hv
    injection hv with hv
    rw [hv, Nat.zero_add]
  | some w =>
    apply loop_ow _ _ 0 nC (by omega) (by omega)
    intro i hi v hv c hc
    simp only [orFill, List.getElem?_take, hi, if_true] at hv
    rw [rd_some hv, ok_bind, wr_ok (by omega), Nat.zero_add]

theorem stackDense_ok {e : Env α} {n : Dims} {L R : List α} {A : Option (List α)}
    (hL : n.nComp * n.nV ≤ L.length) (hR : n.nComp * n.nV ≤ R.length) (hA : OptLen A (n.nC * n.nV))
    (hA' : A = none → n.nC = 0) :
    stackDense e n (some L) (some R) A =
      .ok ((A.getD []).take (n.nC * n.nV) ++ L.take (n.nComp * n.nV) ++ R.take (n.nComp * n.nV)) := by
  have hsz : (n.nC + 2 * n.nComp) * n.nV = n.nC * n.nV + n.nComp * n.nV + n.nComp * n.nV := by ring
  unfold stackDense
  dsimp only
  have h0 : (e.alloc 0 ((n.nC + 2 * n.nComp) * n.nV)).length = n.nC * n.nV + n.nComp * n.nV + n.nComp * n.nV := by
    simp [Env.alloc, hsz]
  generalize e.alloc 0 ((n.nC + 2 * n.nComp) * n.nV) = M0 at h0
  have hlA : n.nC * n.nV ≤ (A.getD []).length := by
    cases A with
    | none => simp [hA' rfl]
    | some a => simpa using hA a rfl
  rw [loop_ow (A.getD []) M0 0 (n.nC * n.nV) hlA (by omega) _ (by
    intro i hi v hv c hc
    cases A with
    | none => simp at hv
    | some a =>
      rw [deref_some, ok_bind, rd_some (by simpa using hv), ok_bind, wr_ok (by omega), Nat.zero_add]), ok_bind]
  have l1 : (ow 0 (A.getD []) (n.nC * n.nV) M0).length = M0.length := ow_length hlA (by omega)
  rw [loop_ow L _ (n.nC * n.nV) (n.nComp * n.nV) hL (by omega) _ (by
    intro i hi v hv c hc
    rw [deref_some, ok_bind, rd_some hv, ok_bind, Nat.add_comm i, wr_ok (by omega)]), ok_bind]
  have l2 : (ow (n.nC * n.nV) L (n.nComp * n.nV) (ow 0 (A.getD []) (n.nC * n.nV) M0)).length = M0.length := by
    rw [ow_length hL (by omega), l1]
  rw [loop_ow R _ (n.nC * n.nV + n.nComp * n.nV) (n.nComp * n.nV) hR (by omega) _ (by
    intro i hi v hv c hc
    rw [deref_some, ok_bind, rd_some hv, ok_bind, show i + n.nC * n.nV + n.nComp * n.nV =
      n.nC * n.nV + n.nComp * n.nV + i by omega, wr_ok (by omega)])]
  congr 1
  simp only [ow]
  generalize n.nC * n.nV = p at *
  generalize n.nComp * n.nV = q at *
  have hA2 : ((A.getD []).take p).length = p := by simp; omega
  have hL2 : (L.take q).length = q := by simp; omega
  have hM : (M0.drop (p + q + q)).length = 0 := by simp; omega
  simp only [List.take_zero, List.nil_append, Nat.zero_add]
  rw [List.take_append_of_le_length (l₁ := (A.getD []).take p) (by omega),
    List.take_of_length_le (show ((A.getD []).take p).length ≤ p by omega)]
  rw [List.take_append_of_le_length (l₁ := (A.getD []).take p ++ L.take q) (by simp; omega),
    List.take_of_length_le (show ((A.getD []).take p ++ L.take q).length ≤ p + q by simp; omega)]
  rw [List.drop_eq_nil_of_le (show _ ≤ p + q + q by simp; omega), List.append_nil]

/-! ## complementarity bounds -/

/-- `newIf` gives an array of the right size whenever it is written to -/
theorem newIf_len {e : Env α} {site n : Nat} {arg old : Option (List α)} (h : arg ≠ none) :
    ∃ v, newIf e site n arg old = some v ∧ v.length = n := by
  refine ⟨_, by rw [newIf, if_neg h], by simp [Env.alloc]⟩

/-- the member after the loop: overwritten if the argument is given -/
def owOpt (arg old : Option (List α)) (b : List α) (i : Nat) : Option (List α) :=
  if arg = none then old else old.map (ow 0 b i)

theorem bndLower_ok {n off i : Nat} {lbN : Option (List α)} {l0 : Option (List α)} {u : Option (List α)}
    {lA0 uA : List α} (hi : i < n) (hl : OptLen lbN n) (h0 : lbN ≠ none → ∃ v, l0 = some v ∧ v.length = n)
    (hA : off + n ≤ lA0.length) :
    (∃ w x, lbN = some w ∧ w[i]? = some x ∧ (x <=. (-. inf)) = true ∧
      bndLower off lbN i ⟨owOpt lbN l0 (orFill lbN n zero) i, u, ow off (orFill lbN n zero) i lA0, uA⟩ =
        .ok (.inr ⟨owOpt lbN l0 (orFill lbN n zero) i, u, ow off (orFill lbN n zero) i lA0, uA⟩)) ∨
    ((∀ w x, lbN = some w → w[i]? = some x → (x <=. (-. inf)) = false) ∧
      bndLower off lbN i ⟨owOpt lbN l0 (orFill lbN n zero) i, u, ow off (orFill lbN n zero) i lA0, uA⟩ =
        .ok (.inl ⟨owOpt lbN l0 (orFill lbN n zero) (i + 1), u, ow off (orFill lbN n zero) (i + 1) lA0, uA⟩)) := by
  have hof := orFill_length (v := zero) hl
  have hlA := ow_length (off := off) (i := i) (b := orFill lbN n zero) (M := lA0) (by omega) (by omega)
  cases lbN with
  | none =>
    right
    refine ⟨by simp, ?_⟩
    have hz : (orFill (none : Option (List α)) n zero)[i]? = some zero := by
      simp [orFill, hi]
    simp only [bndLower]
    rw [wr_ok (by omega), ok_bind, ow_set hz (by omega)]
    rfl
  | some w =>
    have hw := hl w rfl
    have hv : w[i]? = some w[i] := List.getElem?_eq_getElem (by omega)
    have hv' : (orFill (some w) n zero)[i]? = some w[i] := by
      simp only [orFill]
      rw [List.getElem?_take, if_pos hi, hv]
    obtain ⟨v0, rfl, hv0⟩ := h0 (by simp)
    by_cases hx : (w[i] <=. (-. inf)) = true
    · left
      refine ⟨w, w[i], rfl, hv, hx, ?_⟩
      simp only [bndLower]
      rw [rd_some hv, ok_bind, if_pos hx]
    · right
      have hx' : (w[i] <=. (-. inf)) = false := by simpa using hx
      refine ⟨?_, ?_⟩
      · rintro w' x ⟨⟩ h'
        rw [hv] at h'
        injection h' with h'
        rw [← h']; exact hx'
      · simp only [bndLower]
        rw [rd_some hv, ok_bind, if_neg hx]
        have : owOpt (some w) (some v0) (orFill (some w) n zero) i = some (ow 0 (orFill (some w) n zero) i v0) := by
          simp [owOpt]
        simp only [this, deref_some, ok_bind]
        have hl0 := ow_length (off := 0) (i := i) (b := orFill (some w) n zero) (M := v0) (by omega) (by omega)
        have h1 := ow_set (off := 0) (M := v0) hv' (by omega)
        rw [Nat.zero_add] at h1
        rw [wr_ok (by omega), ok_bind, h1, wr_ok (by omega), ok_bind, ow_set hv' (by omega)]
        simp [owOpt]

theorem bndUpper_ok {n off i : Nat} {ubN : Option (List α)} {u0 : Option (List α)} {l : Option (List α)}
    {lA uA0 : List α} (hi : i < n) (hl : OptLen ubN n) (h0 : ubN ≠ none → ∃ v, u0 = some v ∧ v.length = n)
    (hA : off + n ≤ uA0.length) :
    bndUpper off ubN i ⟨l, owOpt ubN u0 (orFill ubN n inf) i, lA, ow off (orFill ubN n inf) i uA0⟩ =
        .ok ⟨l, owOpt ubN u0 (orFill ubN n inf) (i + 1), lA, ow off (orFill ubN n inf) (i + 1) uA0⟩ := by
  have hof := orFill_length (v := inf) hl
  have hlA := ow_length (off := off) (i := i) (b := orFill ubN n inf) (M := uA0) (by omega) (by omega)
  cases ubN with
  | none =>
    have hz : (orFill (none : Option (List α)) n inf)[i]? = some inf := by
      simp [orFill, hi]
    simp only [bndUpper]
    rw [wr_ok (by omega), ok_bind, ow_set hz (by omega)]
    rfl
  | some w =>
    have hw := hl w rfl
    have hv : w[i]? = some w[i] := List.getElem?_eq_getElem (by omega)
    have hv' : (orFill (some w) n inf)[i]? = some w[i] := by
      simp only [orFill]
      rw [List.getElem?_take, if_pos hi, hv]
    obtain ⟨v0, rfl, hv0⟩ := h0 (by simp)
    simp only [bndUpper]
    have : owOpt (some w) (some v0) (orFill (some w) n inf) i = some (ow 0 (orFill (some w) n inf) i v0) := by
      simp [owOpt]
    have hl0 := ow_length (off := 0) (i := i) (b := orFill (some w) n inf) (M := v0) (by omega) (by omega)
    have h1 := ow_set (off := 0) (M := v0) hv' (by omega)
    rw [Nat.zero_add] at h1
    rw [rd_some hv, ok_bind, this, deref_some, ok_bind, wr_ok (by omega), ok_bind, h1, wr_ok (by omega), ok_bind,
      ow_set hv' (by omega)]
    simp [owOpt]

/-- one of the loops of `setComplementarityBounds` -/
theorem bndLoop_ok {n off : Nat} {lbN ubN l0 u0 : Option (List α)} {lA0 uA0 : List α}
    (hl : OptLen lbN n) (hu : OptLen ubN n)
    (h0 : lbN ≠ none → ∃ v, l0 = some v ∧ v.length = n) (h1 : ubN ≠ none → ∃ v, u0 = some v ∧ v.length = n)
    (hA : off + n ≤ lA0.length) (hU : off + n ≤ uA0.length) :
    (HasMinusInf lbN n ∧ ∃ t, bndLoop n off lbN ubN ⟨l0, u0, lA0, uA0⟩ = .ok (.inr t)) ∨
    (¬ HasMinusInf lbN n ∧ bndLoop n off lbN ubN ⟨l0, u0, lA0, uA0⟩ =
      .ok (.inl ⟨owOpt lbN l0 (orFill lbN n zero) n, owOpt ubN u0 (orFill ubN n inf) n,
        ow off (orFill lbN n zero) n lA0, ow off (orFill ubN n inf) n uA0⟩)) := by
  have hz : ∀ (arg old : Option (List α)) b, owOpt arg old b 0 = old := by
    intro arg old b
    unfold owOpt
    split
    · rfl
    · cases old <;> simp [ow_zero]
  unfold bndLoop
  rcases loopE_inv (fun i (t : BndSt α) => t = ⟨owOpt lbN l0 (orFill lbN n zero) i,
        owOpt ubN u0 (orFill ubN n inf) i, ow off (orFill lbN n zero) i lA0, ow off (orFill ubN n inf) i uA0⟩ ∧
        ∀ j < i, ∀ w x, lbN = some w → w[j]? = some x → (x <=. (-. inf)) = false)
      (fun _ => HasMinusInf lbN n) n (fun i s => do
    let r ← bndLower off lbN i s
    match r with
    | .inr s => .ok (.inr s)
    | .inl s => do
      let s ← bndUpper off ubN i s
      .ok (.inl s)) ⟨l0, u0, lA0, uA0⟩ (by
        refine ⟨by simp [hz, ow_zero], by simp⟩) (by
      rintro i hi t ⟨rfl, hj⟩
      rcases bndLower_ok (u := owOpt ubN u0 (orFill ubN n inf) i) (uA := ow off (orFill ubN n inf) i uA0) hi hl h0 hA
        with ⟨w, x, hw, hx, hxi, h⟩ | ⟨hx, h⟩
      · right
        refine ⟨_, by rw [h, ok_bind], ?_⟩
        exact ⟨w, hw, i, hi, x, hx, hxi⟩
      · left
        refine ⟨_, by rw [h, ok_bind]; dsimp only; rw [bndUpper_ok hi hu h1 hU, ok_bind], rfl, ?_⟩
        intro j hj' w y hw hy
        rcases Nat.lt_or_ge j i with h' | h'
        · exact hj j h' w y hw hy
        · have : j = i := by omega
          subst this
          exact hx w y hw hy) with ⟨t, ht, rfl, hno⟩ | ⟨r, hr, hm⟩
  · right
    refine ⟨?_, ht⟩
    rintro ⟨w, hw, i, hi, x, hx, h⟩
    rw [hno i hi w x hw hx] at h
    exact absurd h (by decide)
  · left
    exact ⟨hm, r, hr⟩

/-- value of a bound member after a successful call -/
def bndMem (arg old : Option (List α)) (n : Nat) : Option (List α) :=
  if arg = none then old else arg.map (List.take n)

theorem owOpt_newIf {e : Env α} {site n : Nat} {arg old : Option (List α)} (h : OptLen arg n) (v : α) :
    owOpt arg (newIf e site n arg old) (orFill arg n v) n = bndMem arg old n := by
  cases arg with
  | none => simp [owOpt, newIf, bndMem]
  | some w =>
    simp only [owOpt, newIf, bndMem, reduceCtorEq, if_false, Option.map_some]
    rw [ow_full (by simp [Env.alloc])]
    simp [orFill, List.take_take]

/-- closed form of `setComplementarityBounds` -/
theorem setCompBounds_ok {e : Env α} {d : Data α} {n : Dims} {lbL ubL lbR ubR : Option (List α)}
    {bA uA fA fU : List α} (hn : d.dims = some n)
    (h1 : OptLen lbL n.nComp) (h2 : OptLen ubL n.nComp) (h3 : OptLen lbR n.nComp) (h4 : OptLen ubR n.nComp)
    (hA : d.lbA = some (bA ++ fA)) (hU : d.ubA = some (uA ++ fU)) (lA : bA.length = n.nC)
    (lU : uA.length = n.nC) (lfA : fA.length = 2 * n.nComp) (lfU : fU.length = 2 * n.nComp) :
    ((HasMinusInf lbL n.nComp ∨ HasMinusInf lbR n.nComp) ∧
      ∃ d', setCompBounds e d lbL ubL lbR ubR = .ok (.invalidLowerComplementarityBound, d')) ∨
    (¬ HasMinusInf lbL n.nComp ∧ ¬ HasMinusInf lbR n.nComp ∧
      setCompBounds e d lbL ubL lbR ubR = .ok (.successfulReturn, { d with
        lbL := bndMem lbL d.lbL n.nComp
        ubL := bndMem ubL d.ubL n.nComp
        lbR := bndMem lbR d.lbR n.nComp
        ubR := bndMem ubR d.ubR n.nComp
        lbA := some (bA ++ orFill lbL n.nComp zero ++ orFill lbR n.nComp zero)
        ubA := some (uA ++ orFill ubL n.nComp inf ++ orFill ubR n.nComp inf) })) := by
  have o1 := orFill_length (v := zero) h1
  have o2 := orFill_length (v := inf) h2
  have o3 := orFill_length (v := zero) h3
  have o4 := orFill_length (v := inf) h4
  have key : ∀ (b f x y : List α) , b.length = n.nC → f.length = 2 * n.nComp → x.length = n.nComp → y.length = n.nComp →
      ow (n.nC + n.nComp) y n.nComp (ow n.nC x n.nComp (b ++ f)) = b ++ x ++ y := by
    intro b f x y hb hf hx hy
    have e1 : ow n.nC x n.nComp (b ++ f) = b ++ x ++ f.drop n.nComp := by
      unfold ow
      rw [List.take_append_of_le_length (by omega), List.take_of_length_le (Nat.le_of_eq hb),
        List.take_of_length_le (Nat.le_of_eq hx), ← hb, List.drop_length_add_append]
    rw [e1]
    unfold ow
    rw [List.take_append_of_le_length (by simp; omega), List.take_of_length_le (show (b ++ x).length ≤ _ by simp; omega),
      List.take_of_length_le (Nat.le_of_eq hy), List.drop_eq_nil_of_le (by simp; omega), List.append_nil]
  unfold setCompBounds
  rw [hn, initd_some, ok_bind, hA, deref_some, ok_bind, hU, deref_some, ok_bind]
  dsimp only
  rcases bndLoop_ok (off := n.nC) (lA0 := bA ++ fA) (uA0 := uA ++ fU) h1 h2
    (newIf_len (e := e) (site := 7) (n := n.nComp) (old := d.lbL))
    (newIf_len (e := e) (site := 8) (n := n.nComp) (old := d.ubL)) (by simp; omega) (by simp; omega)
    with ⟨hm, t, ht⟩ | ⟨hm, ht⟩
  · left
    rw [ht, ok_bind]
    exact ⟨Or.inl hm, _, rfl⟩
  · rw [ht, ok_bind]
    dsimp only
    rcases bndLoop_ok (off := n.nC + n.nComp) (lA0 := ow n.nC (orFill lbL n.nComp zero) n.nComp (bA ++ fA))
      (uA0 := ow n.nC (orFill ubL n.nComp inf) n.nComp (uA ++ fU)) h3 h4
      (newIf_len (e := e) (site := 9) (n := n.nComp) (old := d.lbR))
      (newIf_len (e := e) (site := 10) (n := n.nComp) (old := d.ubR))
      (by rw [ow_length (by omega) (by simp; omega)]; simp; omega)
      (by rw [ow_length (by omega) (by simp; omega)]; simp; omega)
      with ⟨hm', t, ht⟩ | ⟨hm', ht⟩
    · left
      rw [ht, ok_bind]
      exact ⟨Or.inr hm', _, rfl⟩
    · right
      refine ⟨hm, hm', ?_⟩
      rw [ht, ok_bind]
      dsimp only
      rw [owOpt_newIf h1, owOpt_newIf h2, owOpt_newIf h3, owOpt_newIf h4, key _ _ _ _ lA lfA o1 o3,
        key _ _ _ _ lU lfU o2 o4]

/-! ## initial guess -/

theorem setInitialGuess_ok {e : Env α} {d : Data α} {s : St α} {n : Dims} {x0 y0 : Option (List α)}
    (hn : d.dims = some n) (hV : n.nV ≠ 0) (hC : n.nComp ≠ 0) (hx : OptLen x0 n.nV)
    (hy : OptLen y0 (n.nV + n.nA)) :
    setInitialGuess e d s x0 y0 = .ok (.successfulReturn, { s with
      xk := some (orFill x0 n.nV zero)
      yk := y0.map (List.take (n.nV + n.nA)) }) := by
  have hnA : n.nV + n.nC + 2 * n.nComp = n.nV + n.nA := by simp [Dims.nA]; omega
  unfold setInitialGuess
  rw [hn, initd_some, ok_bind, if_neg (by simp [hV, hC]), hnA]
  have h1 : guessX x0 n.nV = .ok (orFill x0 n.nV zero) := by
    cases x0 with
    | none => rfl
    | some x => exact copyN_take (hx x rfl)
  have h2 : guessY e y0 (n.nV + n.nA) = .ok (y0.map (List.take (n.nV + n.nA))) := by
    cases y0 with
    | none => rfl
    | some y =>
      have hy := hy y rfl
      simp only [guessY]
      rw [loop_ow y _ 0 (n.nV + n.nA) hy (by simp [Env.alloc]) _ (by
        intro i hi v hv c hc
        rw [rd_some hv, ok_bind, wr_ok (by rw [hc]; simpa [Env.alloc] using hi), Nat.zero_add]), ok_bind,
        ow_full (by simp [Env.alloc])]
      rfl
  rw [h1, ok_bind, h2, ok_bind]

/-! ## dense load -/

theorem setConstraints_ok {e : Env α} {d : Data α} {n : Dims} {L R : List α} {A lbA ubA : Option (List α)}
    (hn : d.dims = some n) (hV : n.nV ≠ 0) (hC : n.nComp ≠ 0) (hL : n.nComp * n.nV ≤ L.length)
    (hR : n.nComp * n.nV ≤ R.length) (hA : OptLen A (n.nC * n.nV)) (h1 : OptLen lbA n.nC) (h2 : OptLen ubA n.nC)
    (hA' : ¬ (A = none ∧ 0 < n.nC)) :
    setConstraints e d (some L) (some R) A lbA ubA = .ok (.successfulReturn, { d with
      A := some ((A.getD []).take (n.nC * n.nV) ++ L.take (n.nComp * n.nV) ++ R.take (n.nComp * n.nV))
      lbA := some (orFill lbA n.nC (-. inf) ++ (e.alloc 1 n.nA).drop n.nC)
      ubA := some (orFill ubA n.nC inf ++ (e.alloc 2 n.nA).drop n.nC)
      L := some (L.take (n.nComp * n.nV))
      R := some (R.take (n.nComp * n.nV))
      C := some (grid n.nV n.nV fun i j =>
        if j ≤ i then symVal (L.take (n.nComp * n.nV)) (R.take (n.nComp * n.nV)) n.nComp n.nV i j
        else symVal (L.take (n.nComp * n.nV)) (R.take (n.nComp * n.nV)) n.nComp n.nV j i) }) := by
  have hnA : n.nC ≤ n.nA := by simp [Dims.nA]
  have hc : ∀ (s : Nat) (X : List α), n.nComp * n.nV ≤ X.length →
      loop (n.nComp * n.nV) (fun i b => do let v ← rd X i; wr b i v) (e.alloc s (n.nComp * n.nV)) =
        .ok (X.take (n.nComp * n.nV)) := by
    intro s X hX
    rw [loop_ow X _ 0 (n.nComp * n.nV) hX (by simp [Env.alloc]) _ (by
        intro i hi v hv c hc
        rw [rd_some hv, ok_bind, wr_ok (by rw [hc]; simpa [Env.alloc] using hi), Nat.zero_add]),
        ow_full (by simp [Env.alloc])]
  unfold setConstraints
  rw [hn, initd_some, ok_bind, if_neg (by simp [hV, hC]), if_neg hA',
    stackDense_ok hL hR hA (by intro h; by_contra h'; exact hA' ⟨h, by omega⟩), ok_bind,
    fillBound_ok h1 (by simpa [Env.alloc] using hnA), ok_bind,
    fillBound_ok h2 (by simpa [Env.alloc] using hnA), ok_bind]
  dsimp only
  rw [hc 3 L hL, ok_bind, hc 4 R hR, ok_bind, symProd_ok (by simp; omega) (by simp; omega) (by simp [Env.alloc]), ok_bind]

/-- what a successful dense load stores -/
def denseObj (o : Obj α) (n : Dims) (a : DenseArgs α) (Q g L R : List α) : Obj α where
  d := { o.d with
    Q := some (Q.take (n.nV * n.nV))
    g := some (g.take n.nV)
    lbTmp := (a.lb.map (List.take n.nV)).orElse fun _ => o.d.lbTmp
    ubTmp := (a.ub.map (List.take n.nV)).orElse fun _ => o.d.ubTmp
    A := some ((a.A.getD []).take (n.nC * n.nV) ++ L.take (n.nComp * n.nV) ++ R.take (n.nComp * n.nV))
    L := some (L.take (n.nComp * n.nV))
    R := some (R.take (n.nComp * n.nV))
    C := some (grid n.nV n.nV fun i j =>
        if j ≤ i then symVal (L.take (n.nComp * n.nV)) (R.take (n.nComp * n.nV)) n.nComp n.nV i j
        else symVal (L.take (n.nComp * n.nV)) (R.take (n.nComp * n.nV)) n.nComp n.nV j i)
    lbL := bndMem a.lbL o.d.lbL n.nComp
    ubL := bndMem a.ubL o.d.ubL n.nComp
    lbR := bndMem a.lbR o.d.lbR n.nComp
    ubR := bndMem a.ubR o.d.ubR n.nComp
    lbA := some (orFill a.lbA n.nC (-. inf) ++ orFill a.lbL n.nComp zero ++ orFill a.lbR n.nComp zero)
    ubA := some (orFill a.ubA n.nC inf ++ orFill a.ubL n.nComp inf ++ orFill a.ubR n.nComp inf)
    sparse := false }
  s := { o.s with
    xk := some (orFill a.x0 n.nV zero)
    yk := a.y0.map (List.take (n.nV + n.nA)) }

theorem loadDense_ok {e : Env α} {o : Obj α} {n : Dims} {a : DenseArgs α} (hn : o.d.dims = some n)
    (hV : n.nV ≠ 0) (hC : n.nComp ≠ 0) (hf : a.Fits n) :
    (a.g = none ∧ ∃ o', loadDense e o a = .ok (.invalidObjectiveLinearTerm, o')) ∨
    (a.g ≠ none ∧ (a.A = none ∧ 0 < n.nC) ∧ ∃ o', loadDense e o a = .ok (.invalidConstraintMatrix, o')) ∨
    (a.g ≠ none ∧ ¬ (a.A = none ∧ 0 < n.nC) ∧ (HasMinusInf a.lbL n.nComp ∨ HasMinusInf a.lbR n.nComp) ∧
      ∃ o', loadDense e o a = .ok (.invalidLowerComplementarityBound, o')) ∨
    (a.g ≠ none ∧ ¬ (a.A = none ∧ 0 < n.nC) ∧ ¬ HasMinusInf a.lbL n.nComp ∧ ¬ HasMinusInf a.lbR n.nComp ∧
      ∃ Q g L R, a.Q = some Q ∧ a.g = some g ∧ a.L = some L ∧ a.R = some R ∧
        n.nV * n.nV ≤ Q.length ∧ n.nV ≤ g.length ∧ n.nComp * n.nV ≤ L.length ∧ n.nComp * n.nV ≤ R.length ∧
        loadDense e o a = .ok (.successfulReturn, denseObj o n a Q g L R)) := by
  obtain ⟨Q, hQ, lQ⟩ := hf.Q
  obtain ⟨L, hL, lL⟩ := hf.L
  obtain ⟨R, hR, lR⟩ := hf.R
  unfold loadDense
  rw [hn, initd_some, ok_bind, if_neg (by simp [hV, hC])]
  have h1 : setQ o.d a.Q = .ok (.successfulReturn, { o.d with Q := some (Q.take (n.nV * n.nV)) }) := by
    simp only [setQ, hn, initd_some, ok_bind, if_neg hV, hQ, deref_some, copyN_take lQ]
  rw [thenData, h1, ok_bind, if_neg (by simp)]
  dsimp only
  cases hg : a.g with
  | none =>
    left
    refine ⟨rfl, ?_⟩
    have h2 : setG { o.d with Q := some (Q.take (n.nV * n.nV)) } none =
        .ok (.invalidObjectiveLinearTerm, { o.d with Q := some (Q.take (n.nV * n.nV)) }) := by
      simp only [setG, hn, initd_some, ok_bind, if_neg hV]
    rw [thenData, h2, ok_bind, if_pos (by simp)]
    exact ⟨_, rfl⟩
  | some g =>
    right
    have lg := hf.g g hg
    have h2 : setG { o.d with Q := some (Q.take (n.nV * n.nV)) } (some g) = .ok (.successfulReturn,
        { o.d with Q := some (Q.take (n.nV * n.nV)), g := some (g.take n.nV) }) := by
      simp only [setG, hn, initd_some, ok_bind, if_neg hV, copyN_take lg]
    rw [thenData, h2, ok_bind, if_neg (by simp)]
    dsimp only
    have h3 : setTmp { o.d with Q := some (Q.take (n.nV * n.nV)), g := some (g.take n.nV) } a.lb a.ub = .ok
        { o.d with
          Q := some (Q.take (n.nV * n.nV))
          g := some (g.take n.nV)
          lbTmp := (a.lb.map (List.take n.nV)).orElse fun _ => o.d.lbTmp
          ubTmp := (a.ub.map (List.take n.nV)).orElse fun _ => o.d.ubTmp } := by
      simp only [setTmp, hn, initd_some, ok_bind, copyOpt_take hf.lb, copyOpt_take hf.ub]
    rw [h3, ok_bind]
    have hd1 : ({ o.d with
          Q := some (Q.take (n.nV * n.nV))
          g := some (g.take n.nV)
          lbTmp := (a.lb.map (List.take n.nV)).orElse fun _ => o.d.lbTmp
          ubTmp := (a.ub.map (List.take n.nV)).orElse fun _ => o.d.ubTmp } : Data α).dims = some n := hn
    generalize hd : ({ o.d with
          Q := some (Q.take (n.nV * n.nV))
          g := some (g.take n.nV)
          lbTmp := (a.lb.map (List.take n.nV)).orElse fun _ => o.d.lbTmp
          ubTmp := (a.ub.map (List.take n.nV)).orElse fun _ => o.d.ubTmp } : Data α) = d1 at hd1
    rw [hL, hR]
    by_cases hA : a.A = none ∧ 0 < n.nC
    · left
      refine ⟨by simp, hA, ?_⟩
      have h4 : setConstraints e d1 (some L) (some R) a.A a.lbA a.ubA = .ok (.invalidConstraintMatrix, d1) := by
        rw [setConstraints, hd1, initd_some, ok_bind, if_neg (by simp [hV, hC]), if_pos hA]
      rw [thenData, h4, ok_bind, if_pos (by simp)]
      exact ⟨_, rfl⟩
    · right
      rw [thenData, setConstraints_ok hd1 hV hC lL lR hf.A hf.lbA hf.ubA hA, ok_bind, if_neg (by simp)]
      dsimp only
      have hdr : ∀ k, ((e.alloc k n.nA).drop n.nC).length = 2 * n.nComp := by
        intro k; simp [Env.alloc, Dims.nA]
      rcases setCompBounds_ok (e := e) (d := { d1 with
          A := some ((a.A.getD []).take (n.nC * n.nV) ++ L.take (n.nComp * n.nV) ++ R.take (n.nComp * n.nV))
          lbA := some (orFill a.lbA n.nC (-. inf) ++ (e.alloc 1 n.nA).drop n.nC)
          ubA := some (orFill a.ubA n.nC inf ++ (e.alloc 2 n.nA).drop n.nC)
          L := some (L.take (n.nComp * n.nV))
          R := some (R.take (n.nComp * n.nV))
          C := some (grid n.nV n.nV fun i j =>
            if j ≤ i then symVal (L.take (n.nComp * n.nV)) (R.take (n.nComp * n.nV)) n.nComp n.nV i j
            else symVal (L.take (n.nComp * n.nV)) (R.take (n.nComp * n.nV)) n.nComp n.nV j i) })
          hd1 hf.lbL hf.ubL hf.lbR hf.ubR rfl rfl (orFill_length hf.lbA) (orFill_length hf.ubA) (hdr 1) (hdr 2)
        with ⟨hm, d', h⟩ | ⟨hm1, hm2, h⟩
      · left
        refine ⟨by simp, hA, hm, ?_⟩
        rw [thenData, h, ok_bind, if_pos (by simp)]
        exact ⟨_, rfl⟩
      · right
        refine ⟨by simp, hA, hm1, hm2, Q, g, L, R, hQ, rfl, rfl, rfl, lQ, lg, lL, lR, ?_⟩
        rw [thenData, h, ok_bind, if_neg (by simp)]
        dsimp only
        rw [thenSt, setInitialGuess_ok (n := n) (by exact hd1) hV hC hf.x0 hf.y0, ok_bind, if_neg (by simp), ← hd]
        rfl

end LCQ
