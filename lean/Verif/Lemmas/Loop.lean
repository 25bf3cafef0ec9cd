import Verif.Model.Utilities
import Mathlib.Tactic.Linarith
import Mathlib.Tactic.Ring

/-! # Lemmas about loops, arrays and closed forms of array contents -/

namespace LCQ
open Scalar

/-- If `F i` is the state after `i` rounds, the loop ends in `F n`. -/
theorem loop_eq {σ : Type} (F : Nat → σ) (n : Nat) (f : Nat → σ → M σ) (s : σ)
    (h0 : s = F 0) (hs : ∀ i < n, f i (F i) = .ok (F (i + 1))) : loop n f s = .ok (F n) := by
  induction n with
  | zero => simp [loop, h0]
  | succ n ih =>
    rw [loop, ih (fun i hi => hs i (by omega))]
    exact hs n (by omega)

/-- Hoare rule for total correctness of loops. -/
theorem loop_inv {σ : Type} (I : Nat → σ → Prop) (n : Nat) (f : Nat → σ → M σ) (s : σ)
    (h0 : I 0 s) (hs : ∀ i < n, ∀ t, I i t → ∃ t', f i t = .ok t' ∧ I (i + 1) t') :
    ∃ t, loop n f s = .ok t ∧ I n t := by
  induction n with
  | zero => exact ⟨s, rfl, h0⟩
  | succ n ih =>
    obtain ⟨t, ht, hI⟩ := ih (fun i hi => hs i (by omega))
    obtain ⟨t', ht', hI'⟩ := hs n (by omega) t hI
    exact ⟨t', by simp [loop, ht, ht'], hI'⟩

/-- Partial correctness rule. -/
theorem loop_partial {σ : Type} (I : Nat → σ → Prop) (n : Nat) (f : Nat → σ → M σ) (s t : σ)
    (hr : loop n f s = .ok t) (h0 : I 0 s)
    (hs : ∀ i < n, ∀ t t', I i t → f i t = .ok t' → I (i + 1) t') : I n t := by
  induction n generalizing t with
  | zero => simp [loop] at hr; exact hr ▸ h0
  | succ n ih =>
    rw [loop, bind_eq_ok] at hr
    obtain ⟨u, hu, hf⟩ := hr
    exact hs n (by omega) u t (ih u hu (fun i hi => hs i (by omega))) hf

theorem loop_congr {σ : Type} (n : Nat) (f g : Nat → σ → M σ) (s : σ)
    (h : ∀ i < n, ∀ t, f i t = g i t) : loop n f s = loop n g s := by
  induction n with
  | zero => rfl
  | succ n ih =>
    rw [loop, loop, ih (fun i hi => h i (by omega))]
    congr 1
    funext t
    exact h n (by omega) t

/-- Rule for loops that always run to the end. -/
theorem loopE_eq {σ ρ : Type} (F : Nat → σ) (n : Nat) (f : Nat → σ → M (σ ⊕ ρ)) (s : σ)
    (h0 : s = F 0) (hs : ∀ i < n, f i (F i) = .ok (.inl (F (i + 1)))) :
    loopE n f s = .ok (.inl (F n)) := by
  induction n with
  | zero => simp [loopE, h0]
  | succ n ih =>
    rw [loopE, ih (fun i hi => hs i (by omega))]
    exact hs n (by omega)

/-- Hoare rule for loops with early exit. -/
theorem loopE_inv {σ ρ : Type} (I : Nat → σ → Prop) (E : ρ → Prop) (n : Nat)
    (f : Nat → σ → M (σ ⊕ ρ)) (s : σ)
    (h0 : I 0 s)
    (hs : ∀ i < n, ∀ t, I i t → (∃ t', f i t = .ok (.inl t') ∧ I (i + 1) t') ∨
      (∃ r, f i t = .ok (.inr r) ∧ E r)) :
    (∃ t, loopE n f s = .ok (.inl t) ∧ I n t) ∨ (∃ r, loopE n f s = .ok (.inr r) ∧ E r) := by
  induction n with
  | zero => exact Or.inl ⟨s, rfl, h0⟩
  | succ n ih =>
    rcases ih (fun i hi => hs i (by omega)) with ⟨t, ht, hI⟩ | ⟨r, hr, hE⟩
    · rcases hs n (by omega) t hI with ⟨t', ht', hI'⟩ | ⟨r, hr, hE⟩
      · exact Or.inl ⟨t', by simp [loopE, ht, ht'], hI'⟩
      · exact Or.inr ⟨r, by simp [loopE, ht, hr], hE⟩
    · exact Or.inr ⟨r, by simp [loopE, hr], hE⟩

variable {α : Type} [Scalar α]

/-- Total array access (only used under length hypotheses). -/
def gt (b : List α) (i : Nat) : α := b.getD i zero

/-- Total access to an `int` array (only used under length hypotheses). -/
def gtI (b : List Int) (i : Nat) : Int := b.getD i 0

theorem rd_ok {b : List α} {i : Nat} (h : i < b.length) : rd b i = .ok (gt b i) := by
  simp [rd, gt, h, List.getD_eq_getElem?_getD]

theorem rdi_ok {b : List Int} {i : Nat} (h : i < b.length) : rd b i = .ok (gtI b i) := by
  simp [rd, gtI, h, List.getD_eq_getElem?_getD]

theorem rd_eq_ok {β : Type} {b : List β} {i : Nat} {v : β} (h : rd b i = .ok v) :
    i < b.length ∧ b[i]? = some v := by
  unfold rd at h
  split at h
  · rename_i w hw
    simp at h
    subst h
    exact ⟨(List.getElem?_eq_some_iff.mp hw).1, hw⟩
  · simp at h

theorem rdI_nat {β : Type} (b : List β) (i : Nat) : rdI b (i : Int) = rd b i := by
  simp [rdI]

theorem wr_ok {β : Type} {b : List β} {i : Nat} (h : i < b.length) (v : β) :
    wr b i v = .ok (b.set i v) := by simp [wr, h]

theorem wrI_nat {β : Type} (b : List β) (i : Nat) (v : β) : wrI b (i : Int) v = wr b i v := by
  simp [wrI]

/-- `tab n f` is the array `[f 0, ..., f (n-1)]`. -/
def tab {β : Type} (n : Nat) (f : Nat → β) : List β := (List.range n).map f

@[simp] theorem tab_length {β : Type} (n : Nat) (f : Nat → β) : (tab n f).length = n := by
  simp [tab]

theorem tab_getElem? {β : Type} {n : Nat} (f : Nat → β) {i : Nat} (h : i < n) :
    (tab n f)[i]? = some (f i) := by
  simp [tab, h]

theorem gt_tab {n : Nat} (f : Nat → α) {i : Nat} (h : i < n) : gt (tab n f) i = f i := by
  simp [gt, List.getD_eq_getElem?_getD, tab_getElem? f h]

theorem gtI_tab {n : Nat} (f : Nat → Int) {i : Nat} (h : i < n) : gtI (tab n f) i = f i := by
  simp [gtI, List.getD_eq_getElem?_getD, tab_getElem? f h]

theorem tab_congr {β : Type} {n : Nat} {f g : Nat → β} (h : ∀ i < n, f i = g i) :
    tab n f = tab n g := by
  simp only [tab]
  apply List.map_congr_left
  intro a ha
  exact h a (List.mem_range.mp ha)

theorem list_eq_tab {b : List α} : b = tab b.length (gt b) := by
  apply List.ext_getElem?
  intro i
  by_cases h : i < b.length
  · rw [tab_getElem? _ h]; simp [gt, h, List.getD_eq_getElem?_getD]
  · rw [List.getElem?_eq_none (by omega), List.getElem?_eq_none (by simp; omega)]

theorem eq_tab_of {b : List α} {n : Nat} {f : Nat → α} (hl : b.length = n)
    (h : ∀ i < n, gt b i = f i) : b = tab n f := by
  rw [list_eq_tab (b := b), hl]
  exact tab_congr h

theorem gt_ext {b c : List α} (hl : b.length = c.length) (h : ∀ i < b.length, gt b i = gt c i) :
    b = c := by
  rw [list_eq_tab (b := c), ← hl]
  exact eq_tab_of rfl h

theorem gt_set {b : List α} {i : Nat} (h : i < b.length) (v : α) (j : Nat) :
    gt (b.set i v) j = if j = i then v else gt b j := by
  simp only [gt, List.getD_eq_getElem?_getD, List.getElem?_set]
  by_cases hj : i = j
  · subst hj; simp [h]
  · have : ¬ j = i := fun e => hj e.symm
    simp [hj, this]

theorem gt_take {b : List α} {n i : Nat} (h : i < n) : gt (b.take n) i = gt b i := by
  simp [gt, List.getD_eq_getElem?_getD, h]

theorem gt_drop {b : List α} {n i : Nat} : gt (b.drop n) i = gt b (n + i) := by
  simp [gt, List.getD_eq_getElem?_getD]

theorem gt_append_left {a b : List α} {i : Nat} (h : i < a.length) : gt (a ++ b) i = gt a i := by
  simp [gt, List.getD_eq_getElem?_getD, List.getElem?_append_left h]

theorem gt_append_right {a b : List α} {i : Nat} (h : a.length ≤ i) :
    gt (a ++ b) i = gt b (i - a.length) := by
  simp [gt, List.getD_eq_getElem?_getD, List.getElem?_append_right h]

/-- contents of `b` after the cells `0, ..., i-1` have been overwritten by `f`. -/
def pre (i : Nat) (f : Nat → α) (b : List α) : List α :=
  tab b.length (fun t => if t < i then f t else gt b t)

@[simp] theorem pre_length (i : Nat) (f : Nat → α) (b : List α) :
    (pre i f b).length = b.length := by simp [pre]

theorem pre_zero (f : Nat → α) (b : List α) : pre 0 f b = b := by
  rw [list_eq_tab (b := b)]
  simp [pre, ← list_eq_tab]

theorem gt_pre (i : Nat) (f : Nat → α) (b : List α) {t : Nat} (h : t < b.length) :
    gt (pre i f b) t = if t < i then f t else gt b t := by
  rw [pre, gt_tab _ h]

theorem pre_set (i : Nat) (f : Nat → α) (b : List α) (h : i < b.length) :
    (pre i f b).set i (f i) = pre (i + 1) f b := by
  apply gt_ext
  · simp
  · intro t ht
    simp at ht
    rw [gt_set (by simpa using h), gt_pre _ _ _ ht, gt_pre _ _ _ ht]
    by_cases h1 : t = i
    · subst h1; simp
    · have : (t < i + 1) ↔ t < i := by omega
      simp [h1, this]

theorem pre_full (f : Nat → α) (b : List α) : pre b.length f b = tab b.length f := by
  apply tab_congr
  intro i hi
  simp [hi]

/-- sequential sum `((a + t 0) + t 1) + ... + t (n-1)` in the order of the C++ loops -/
def facc (a : α) : Nat → (Nat → α) → α
  | 0, _ => a
  | n + 1, t => facc a n t +. t n

theorem facc_congr {a : α} {n : Nat} {f g : Nat → α} (h : ∀ i < n, f i = g i) :
    facc a n f = facc a n g := by
  induction n with
  | zero => rfl
  | succ n ih => rw [facc, facc, ih (fun i hi => h i (by omega)), h n (by omega)]

/-- summation loops -/
theorem loop_facc (n : Nat) (t : Nat → α) (f : Nat → α → M α) (a : α)
    (h : ∀ i < n, ∀ s, f i s = .ok (s +. t i)) : loop n f a = .ok (facc a n t) :=
  loop_eq (fun i => facc a i t) n f a rfl (fun i hi => by rw [h i hi]; rfl)

/-- one-dimensional filling loops -/
theorem loop_fill (f : Nat → α) (n : Nat) (body : Nat → List α → M (List α)) (b : List α)
    (hl : b.length = n)
    (h : ∀ i < n, body i (pre i f b) = .ok ((pre i f b).set i (f i))) :
    loop n body b = .ok (tab n f) := by
  rw [loop_eq (fun i => pre i f b) n body b (pre_zero f b).symm]
  · rw [← hl, pre_full]
  · intro i hi
    rw [h i hi, pre_set _ _ _ (by omega)]

/-- row-major grid -/
def grid {β : Type} (m p : Nat) (f : Nat → Nat → β) : List β :=
  tab (m * p) (fun t => f (t / p) (t % p))

@[simp] theorem grid_length {β : Type} (m p : Nat) (f : Nat → Nat → β) :
    (grid m p f).length = m * p := by simp [grid]

theorem idx_lt {m p i j : Nat} (hi : i < m) (hj : j < p) : i * p + j < m * p := by
  calc i * p + j < i * p + p := by omega
    _ = (i + 1) * p := by ring
    _ ≤ m * p := Nat.mul_le_mul_right p hi

theorem idx_div {p i j : Nat} (hj : j < p) : (i * p + j) / p = i := by
  rw [Nat.mul_comm, Nat.mul_add_div (by omega), Nat.div_eq_of_lt hj, Nat.add_zero]

theorem idx_mod {p i j : Nat} (hj : j < p) : (i * p + j) % p = j := by
  rw [Nat.mul_comm, Nat.mul_add_mod, Nat.mod_eq_of_lt hj]

theorem idx_inj {p i j i' j' : Nat} (hj : j < p) (hj' : j' < p)
    (h : i * p + j = i' * p + j') : i = i' ∧ j = j' := by
  have h1 := congrArg (· / p) h
  have h2 := congrArg (· % p) h
  simp only [idx_div hj, idx_div hj', idx_mod hj, idx_mod hj'] at h1 h2
  exact ⟨h1, h2⟩

theorem gt_grid {m p i j : Nat} (f : Nat → Nat → α) (hi : i < m) (hj : j < p) :
    gt (grid m p f) (i * p + j) = f i j := by
  rw [grid, gt_tab _ (idx_lt hi hj), idx_div hj, idx_mod hj]

theorem grid_one {β : Type} (m : Nat) (f : Nat → Nat → β) : grid m 1 f = tab m (fun i => f i 0) := by
  simp [grid]
  apply tab_congr
  intro i _
  simp [Nat.mod_one]

theorem grid_congr {β : Type} {m p : Nat} {f g : Nat → Nat → β}
    (h : ∀ i < m, ∀ j < p, f i j = g i j) : grid m p f = grid m p g := by
  apply tab_congr
  intro t ht
  have hp : 0 < p := by
    rcases Nat.eq_zero_or_pos p with h0 | h0
    · subst h0; simp at ht
    · exact h0
  exact h _ (Nat.div_lt_of_lt_mul (by rwa [Nat.mul_comm] at ht)) _ (Nat.mod_lt _ hp)

theorem eq_grid_of {b : List α} {m p : Nat} {f : Nat → Nat → α} (hl : b.length = m * p)
    (h : ∀ i < m, ∀ j < p, gt b (i * p + j) = f i j) : b = grid m p f := by
  rw [list_eq_tab (b := b), hl]
  have : grid m p (fun i j => gt b (i * p + j)) = grid m p f := grid_congr h
  rw [← this]
  apply tab_congr
  intro t ht
  simp only
  rw [Nat.mul_comm, Nat.div_add_mod]

/-- two-dimensional filling loops -/
theorem loop_fill2 (f : Nat → Nat → α) (m p : Nat) (body : Nat → Nat → List α → M (List α))
    (b : List α) (hl : b.length = m * p)
    (h : ∀ i < m, ∀ j < p, ∀ c : List α, c.length = m * p →
      (∀ t < m * p, i * p + j ≤ t → gt c t = gt b t) →
      body i j c = .ok (c.set (i * p + j) (f i j))) :
    loop m (fun i => loop p (body i)) b = .ok (grid m p f) := by
  let F : Nat → Nat → List α := fun i j => pre (i * p + j) (fun t => f (t / p) (t % p)) b
  have inner : ∀ i < m, loop p (body i) (F i 0) = .ok (F (i + 1) 0) := by
    intro i hi
    rw [loop_eq (fun j => F i j) p (body i) (F i 0) rfl]
    · simp only [F]
      congr 2
      ring
    · intro j hj
      rw [h i hi j hj _ (by simp [F, hl])]
      · congr 1
        have hlt : i * p + j < b.length := by rw [hl]; exact idx_lt hi hj
        have := pre_set (i * p + j) (fun t => f (t / p) (t % p)) b hlt
        simp only [idx_div hj, idx_mod hj] at this
        exact this
      · intro t ht htj
        simp only [F]
        rw [gt_pre _ _ _ (by omega), if_neg (by omega)]
  rw [loop_eq (fun i => F i 0) m _ b (by simp [F, pre_zero]) inner]
  simp only [F, Nat.add_zero, ← hl, pre_full]
  rw [grid, hl]

/-- accumulate into one cell: `b[c] = init; for k: b[c] += t k` -/
theorem loop_cell (c : Nat) (n : Nat) (t : Nat → α) (body : Nat → List α → M (List α))
    (b : List α) (a : α) (_hc : c < b.length)
    (h : ∀ k < n, ∀ v : α, body k (b.set c v) = .ok ((b.set c v).set c (v +. t k))) :
    loop n body (b.set c a) = .ok (b.set c (facc a n t)) :=
  loop_eq (fun k => b.set c (facc a k t)) n body _ rfl
    (fun k hk => by rw [h k hk]; simp [facc])

end LCQ
