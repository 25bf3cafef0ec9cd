import Verif.Lemmas.Loop

/-! # Closed forms of the dense kernels, for any arithmetic -/

namespace LCQ
open Scalar

variable {α : Type} [Scalar α]

theorem matMul_ok {A B C : List α} {m n p : Nat} (hA : A.length = m * n) (hB : B.length = n * p)
    (hC : C.length = m * p) :
    matMul A B C m n p =
      .ok (grid m p fun i j => facc zero n fun k => gt A (i * n + k) *. gt B (k * p + j)) := by
  unfold matMul
  apply loop_fill2 _ _ _ _ _ hC
  intro i hi j hj c hc _
  have hidx := idx_lt hi hj
  rw [wr_ok (by omega), ok_bind]
  apply loop_cell _ _ _ _ _ _ (by omega)
  intro k hk v
  rw [rd_ok (b := c.set _ _) (by simp; omega), rd_ok (b := A) (by rw [hA]; exact idx_lt hi hk),
    rd_ok (b := B) (by rw [hB]; exact idx_lt hk hj)]
  simp only [ok_bind]
  rw [wr_ok (by simp; omega), gt_set (by omega), if_pos rfl]

theorem matTMul_ok {A B C : List α} {m n p : Nat} (hA : A.length = m * n) (hB : B.length = m * p)
    (hC : C.length = n * p) :
    matTMul A B C m n p =
      .ok (grid n p fun i j => facc zero m fun k => gt A (k * n + i) *. gt B (k * p + j)) := by
  unfold matTMul
  apply loop_fill2 _ _ _ _ _ hC
  intro i hi j hj c hc _
  have hidx := idx_lt hi hj
  rw [wr_ok (by omega), ok_bind]
  apply loop_cell _ _ _ _ _ _ (by omega)
  intro k hk v
  rw [rd_ok (b := c.set _ _) (by simp; omega), rd_ok (b := A) (by rw [hA]; exact idx_lt hk hi),
    rd_ok (b := B) (by rw [hB]; exact idx_lt hk hj)]
  simp only [ok_bind]
  rw [wr_ok (by simp; omega), gt_set (by omega), if_pos rfl]

theorem set_gt_self {b : List α} {i : Nat} (h : i < b.length) : b.set i (gt b i) = b := by
  apply gt_ext (by simp)
  intro t _
  rw [gt_set h]
  split
  · subst_vars; rfl
  · rfl

theorem addMatTMul_ok {A B C : List α} {m n p : Nat} (hA : A.length = m * n)
    (hB : B.length = m * p) (hC : C.length = n * p) :
    addMatTMul A B C m n p =
      .ok (grid n p fun i j =>
        facc (gt C (i * p + j)) m fun k => gt A (k * n + i) *. gt B (k * p + j)) := by
  unfold addMatTMul
  apply loop_fill2 _ _ _ _ _ hC
  intro i hi j hj c hc hold
  have hidx := idx_lt hi hj
  rw [← hold _ hidx (le_refl _)]
  conv_lhs => rw [← set_gt_self (b := c) (i := i * p + j) (by omega)]
  apply loop_cell _ _ _ _ _ _ (by omega)
  intro k hk v
  rw [rd_ok (b := c.set _ _) (by simp; omega), rd_ok (b := A) (by rw [hA]; exact idx_lt hk hi),
    rd_ok (b := B) (by rw [hB]; exact idx_lt hk hj)]
  simp only [ok_bind]
  rw [wr_ok (by simp; omega), gt_set (by omega), if_pos rfl]

theorem dotProd_ok {a b : List α} {m : Nat} (ha : m ≤ a.length) (hb : m ≤ b.length) :
    dotProd a b m = .ok (facc zero m fun i => gt a i *. gt b i) := by
  unfold dotProd
  apply loop_facc
  intro i hi s
  rw [rd_ok (by omega), rd_ok (by omega)]
  rfl

theorem quadForm_ok {Q p : List α} {m : Nat} (hQ : Q.length = m * m) (hp : p.length = m) :
    quadForm Q p m = .ok (facc zero m fun i =>
      facc zero m (fun j => gt Q (i * m + j) *. gt p j) *. gt p i) := by
  unfold quadForm
  apply loop_facc
  intro i hi s
  rw [loop_facc m (fun j => gt Q (i * m + j) *. gt p j)]
  · simp only [ok_bind]
    rw [rd_ok (by omega)]
    rfl
  · intro j hj t
    rw [rd_ok (b := Q) (by rw [hQ]; exact idx_lt hi hj), rd_ok (b := p) (by omega)]
    rfl

theorem affine_ok {alpha : α} {A b c d : List α} {m n : Nat} (hA : A.length = m * n)
    (hb : b.length = n) (hc : c.length = m) (hd : d.length = m) :
    affine alpha A b c d m n = .ok (tab m fun i =>
      alpha *. facc zero n (fun k => gt A (i * n + k) *. gt b k) +. gt c i) := by
  unfold affine
  apply loop_fill _ _ _ _ hd
  intro i hi
  rw [loop_facc n (fun k => gt A (i * n + k) *. gt b k)]
  · simp only [ok_bind]
    rw [rd_ok (by omega)]
    simp only [ok_bind]
    rw [wr_ok (by simp; omega)]
  · intro j hj t
    rw [rd_ok (b := A) (by rw [hA]; exact idx_lt hi hj), rd_ok (b := b) (by omega)]
    rfl

/-- contents seen through a possibly aliased input -/
def Src.val {α : Type} (s : Src α) (c : List α) : List α :=
  match s with
  | .buf b => b
  | .dst => c

omit [Scalar α] in
theorem Src.rd_eq (s : Src α) (c : List α) (i : Nat) : s.rd c i = LCQ.rd (s.val c) i := by
  cases s <;> rfl

theorem weightedAdd_ok {alpha beta : α} {A B : Src α} {C : List α} {m n : Nat}
    (hA : (A.val C).length = m * n) (hB : (B.val C).length = m * n) (hC : C.length = m * n) :
    weightedAdd alpha A beta B C m n = .ok (grid m n fun i j =>
      alpha *. gt (A.val C) (i * n + j) +. beta *. gt (B.val C) (i * n + j)) := by
  unfold weightedAdd
  apply loop_fill2 _ _ _ _ _ hC
  intro i hi j hj c hc hold
  have hidx := idx_lt hi hj
  have hs : ∀ s : Src α, (s.val C).length = m * n →
      s.rd c (i * n + j) = .ok (gt (s.val C) (i * n + j)) := by
    intro s hs
    cases s with
    | buf b =>
      simp only [Src.val] at hs
      simp only [Src.rd, Src.val]
      rw [rd_ok (by omega)]
    | dst =>
      simp only [Src.rd, Src.val]
      rw [rd_ok (by omega), hold _ hidx (le_refl _)]
  rw [hs A hA, hs B hB]
  simp only [ok_bind]
  rw [wr_ok (by omega)]

theorem weightedVecAdd_ok {alpha beta : α} {a b : Src α} {c : List α} {m : Nat}
    (ha : (a.val c).length = m) (hb : (b.val c).length = m) (hc : c.length = m) :
    weightedVecAdd alpha a beta b c m = .ok (tab m fun i =>
      alpha *. gt (a.val c) i +. beta *. gt (b.val c) i) := by
  unfold weightedVecAdd
  rw [weightedAdd_ok (by omega) (by omega) (by omega), grid_one]
  simp

/-- pure running max/min of `maxAbs` -/
def mxmn (a : Nat → α) : Nat → α × α
  | 0 => (zero, zero)
  | n + 1 =>
    let s := mxmn a n
    if s.1 <. a n then (a n, s.2) else if a n <. s.2 then (s.1, a n) else s

/-- closed form of `maxAbs` -/
def maxAbsF (a : Nat → α) (n : Nat) : α := getMax (mxmn a n).1 (-. (mxmn a n).2)

theorem maxAbs_ok {a : List α} {m : Nat} (ha : m ≤ a.length) :
    maxAbs a m = .ok (maxAbsF (gt a) m) := by
  unfold maxAbs
  rw [loop_eq (fun i => mxmn (gt a) i) m _ (zero, zero) rfl]
  · rfl
  · intro i hi
    rw [rd_ok (by omega)]
    simp only [ok_bind, mxmn]
    split
    · rfl
    · split <;> rfl

/-- value of the symmetrised product -/
def symVal (A B : List α) (m n i j : Nat) : α :=
  facc zero m fun k =>
    gt A (k * n + i) *. gt B (k * n + j) +. gt B (k * n + i) *. gt A (k * n + j)

/-- The symmetrisation stores the lower triangle value at both mirrored positions. -/
theorem symProd_ok {A B C : List α} {m n : Nat} (hA : A.length = m * n) (hB : B.length = m * n)
    (hC : C.length = n * n) :
    symProd A B C m n = .ok (grid n n fun i j =>
      if j ≤ i then symVal A B m n i j else symVal A B m n j i) := by
  let v : Nat → Nat → α := fun i j => if j ≤ i then symVal A B m n i j else symVal A B m n j i
  -- state after the rows below `i` and the columns below `j` of row `i` have been processed
  let I : Nat → Nat → List α → Prop := fun i j c => c.length = n * n ∧
    ∀ a < n, ∀ b < n, (max a b < i ∨ (max a b = i ∧ min a b < j)) →
      gt c (a * n + b) = v a b
  have body : ∀ i < n, ∀ j < i + 1, ∀ c, I i j c → ∃ c',
      (do
        let C ← wr c (i * n + j) zero
        let C ← loop m (fun k C => do
          let c ← rd C (i * n + j)
          let a1 ← rd A (k * n + i)
          let b1 ← rd B (k * n + j)
          let b2 ← rd B (k * n + i)
          let a2 ← rd A (k * n + j)
          wr C (i * n + j) (c +. (a1 *. b1 +. b2 *. a2))) C
        let v ← rd C (i * n + j)
        wr C (j * n + i) v) = .ok c' ∧ I i (j + 1) c' := by
    intro i hi j hj c hI
    obtain ⟨hc, hv⟩ := hI
    have hjn : j < n := by omega
    have hij := idx_lt hi hjn
    have hji := idx_lt hjn hi
    rw [wr_ok (by omega), ok_bind]
    rw [loop_cell _ m (fun k => gt A (k * n + i) *. gt B (k * n + j) +.
      gt B (k * n + i) *. gt A (k * n + j)) _ c _ (by omega)]
    · simp only [ok_bind]
      rw [rd_ok (by simp; omega), ok_bind, wr_ok (by simp; omega)]
      refine ⟨_, rfl, by simp [hc], ?_⟩
      intro a ha b hb hab
      rw [gt_set (by simp; omega), gt_set (by omega), gt_set (by omega), if_pos rfl]
      by_cases h1 : a * n + b = j * n + i
      · obtain ⟨rfl, rfl⟩ := idx_inj hb hi h1
        rw [if_pos rfl]
        simp only [v]
        by_cases h2 : b ≤ a
        · have : a = b := by omega
          subst this; simp [symVal]
        · simp [h2, symVal]
      · rw [if_neg h1]
        by_cases h3 : a * n + b = i * n + j
        · obtain ⟨rfl, rfl⟩ := idx_inj hb hjn h3
          have : b ≤ a := by omega
          simp [v, this, symVal]
        · rw [if_neg h3]
          apply hv a ha b hb
          rcases hab with h | ⟨h, h'⟩
          · exact Or.inl h
          · refine Or.inr ⟨h, ?_⟩
            by_contra hcon
            have hmin : min a b = j := by omega
            rcases Nat.le_total a b with hle | hle
            · have hb' : b = i := by omega
              have ha' : a = j := by omega
              subst hb' ha'; exact h1 rfl
            · have hb' : b = j := by omega
              have ha' : a = i := by omega
              subst hb' ha'; exact h3 rfl
    · intro k hk w
      rw [rd_ok (b := c.set _ _) (by simp; omega), rd_ok (b := A) (by rw [hA]; exact idx_lt hk hi),
        rd_ok (b := B) (by rw [hB]; exact idx_lt hk hjn),
        rd_ok (b := B) (by rw [hB]; exact idx_lt hk hi),
        rd_ok (b := A) (by rw [hA]; exact idx_lt hk hjn)]
      simp only [ok_bind]
      rw [wr_ok (by simp; omega), gt_set (by omega), if_pos rfl]
  have outer : ∃ t, symProd A B C m n = .ok t ∧ I n 0 t := by
    unfold symProd
    apply loop_inv (fun i c => I i 0 c)
    · exact ⟨hC, fun a _ b _ h => by omega⟩
    · intro i hi t hI
      obtain ⟨t', h1, h2, h3⟩ := loop_inv (fun j c => I i j c) (i + 1) _ t hI
        (fun j hj c hc => body i hi j hj c hc)
      refine ⟨t', h1, h2, ?_⟩
      intro a ha b hb hab
      apply h3 a ha b hb
      omega
  obtain ⟨t, h1, h2, h3⟩ := outer
  rw [h1]
  congr 1
  apply eq_grid_of h2
  intro i hi j hj
  exact h3 i hi j hj (by omega)

end LCQ
