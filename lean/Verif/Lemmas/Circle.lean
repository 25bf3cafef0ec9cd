import Verif.Model.Circle
import Verif.Spec.Circle
import Verif.Lemmas.Loop

/-!
# The arrays built by OptimizeOnCircle
-/

namespace LCQ.Circle
open Scalar

variable {α : Type}

theorem idx_lt {m n i j : Nat} (hi : i < m) (hj : j < n) : i * n + j < m * n := by
  have : (i + 1) * n ≤ m * n := Nat.mul_le_mul_right n hi
  rw [Nat.add_mul, Nat.one_mul] at this
  omega

theorem idx_inj {n i j a b : Nat} (hj : j < n) (hb : b < n) (h : i * n + j = a * n + b) : i = a ∧ j = b := by
  have hn : 0 < n := by omega
  have h1 : (i * n + j) / n = i := by rw [Nat.mul_comm, Nat.mul_add_div hn, Nat.div_eq_of_lt hj, Nat.add_zero]
  have h2 : (a * n + b) / n = a := by rw [Nat.mul_comm, Nat.mul_add_div hn, Nat.div_eq_of_lt hb, Nat.add_zero]
  have h3 : i = a := by rw [← h1, ← h2, h]
  subst h3
  exact ⟨rfl, by omega⟩

theorem MatHas.congr {m n : Nat} {F G : Nat → Nat → α} {l : List α} (h : MatHas m n F l)
    (he : ∀ i < m, ∀ j < n, F i j = G i j) : MatHas m n G l :=
  ⟨h.1, fun i hi j hj => by rw [h.2 i hi j hj, he i hi j hj]⟩

theorem VecHas.congr {n : Nat} {F G : Nat → α} {l : List α} (h : VecHas n F l) (he : ∀ i < n, F i = G i) : VecHas n G l :=
  ⟨h.1, fun i hi => by rw [h.2 i hi, he i hi]⟩

theorem MatHas.write {m n : Nat} {F : Nat → Nat → α} {l : List α} (h : MatHas m n F l) {i j : Nat} (hi : i < m) (hj : j < n)
    (v : α) : ∃ l', wr l (i * n + j) v = .ok l' ∧ MatHas m n (fun a b => if a = i ∧ b = j then v else F a b) l' := by
  have hl : i * n + j < l.length := by rw [h.1]; exact idx_lt hi hj
  refine ⟨l.set (i * n + j) v, wr_ok hl v, by simpa using h.1, fun a ha b hb => ?_⟩
  rw [List.getElem?_set]
  split
  · rename_i he
    obtain ⟨rfl, rfl⟩ := idx_inj hj hb he
    simp [hl]
  · rename_i he
    rw [h.2 a ha b hb]
    dsimp only
    rw [if_neg]
    rintro ⟨rfl, rfl⟩
    exact he rfl

theorem VecHas.write {n : Nat} {F : Nat → α} {l : List α} (h : VecHas n F l) {i : Nat} (hi : i < n) (v : α) :
    ∃ l', wr l i v = .ok l' ∧ VecHas n (fun a => if a = i then v else F a) l' := by
  have hl : i < l.length := by rw [h.1]; exact hi
  refine ⟨l.set i v, wr_ok hl v, by simpa using h.1, fun a ha => ?_⟩
  rw [List.getElem?_set]
  split
  · rename_i he
    subst he
    simp [hl]
  · rename_i he
    rw [h.2 a ha]
    dsimp only
    rw [if_neg (fun h => he h.symm)]

variable [Scalar α]

theorem MatHas.zeros (m n : Nat) : MatHas m n (fun _ _ => (zero : α)) (zeros (m * n)) :=
  ⟨by simp [Circle.zeros], fun i hi j hj => by simp [Circle.zeros, List.getElem?_replicate, idx_lt hi hj]⟩

theorem VecHas.zeros (n : Nat) : VecHas n (fun _ => (zero : α)) (Circle.zeros n) :=
  ⟨by simp [Circle.zeros], fun i hi => by simp [Circle.zeros, List.getElem?_replicate, hi]⟩

theorem buildQ_ok {nV : Nat} (h : 2 ≤ nV) :
    ∃ Q : List α, buildQ nV (Circle.zeros (nV * nV)) = .ok Q ∧ MatHas nV nV hess Q := by
  have w0 := MatHas.zeros (α := α) nV nV
  obtain ⟨Q1, e1, w1⟩ := w0.write (i := 0) (j := 0) (by omega) (by omega) (ofInt 17)
  obtain ⟨Q2, e2, w2⟩ := w1.write (i := 1) (j := 1) (by omega) (by omega) (ofInt 17)
  obtain ⟨Q3, e3, w3⟩ := w2.write (i := 0) (j := 1) (by omega) (by omega) (ofInt (-15))
  obtain ⟨Q4, e4, w4⟩ := w3.write (i := 1) (j := 0) (by omega) (by omega) (ofInt (-15))
  obtain ⟨Q5, e5, w5⟩ := loop_inv (fun k => MatHas nV nV fun i j => if i = j ∧ k + 2 ≤ i then zero else hess i j) (nV - 2)
    (fun k Q => wr Q ((k + 2) * nV + (k + 2)) (lit 5 12)) Q4
    (by
      refine w4.congr fun i hi j hj => ?_
      unfold hess
      simp only [ofInt]
      split_ifs <;> first | rfl | (exfalso; omega))
    (by
      intro k hk t ht
      obtain ⟨t', e, w⟩ := ht.write (i := k + 2) (j := k + 2) (by omega) (by omega) (lit 5 12)
      refine ⟨t', e, w.congr fun i hi j hj => ?_⟩
      unfold hess
      split_ifs <;> first | rfl | (exfalso; omega))
  refine ⟨Q5, ?_, w5.congr fun i hi j hj => ?_⟩
  · rw [Nat.zero_mul, Nat.zero_add] at e1
    rw [buildQ, e1, ok_bind, e2, ok_bind, e3, ok_bind, e4, ok_bind, e5]
  · rw [if_neg (by omega)]

theorem buildG_ok {nV : Nat} (h : 2 ≤ nV) : ∃ g : List α, buildG (Circle.zeros nV) = .ok g ∧ VecHas nV lin g := by
  obtain ⟨k, rfl⟩ : ∃ k, nV = k + 2 := ⟨nV - 2, by omega⟩
  refine ⟨lin 0 :: lin 1 :: Circle.zeros k, ?_, by simp [Circle.zeros], fun i hi => ?_⟩
  · have : (Circle.zeros (k + 2) : List α) = zero :: zero :: Circle.zeros k := by
      simp [Circle.zeros, List.replicate_succ]
    rw [this]
    rfl
  · match i, hi with
    | 0, _ => rfl
    | 1, _ => rfl
    | i + 2, hi =>
      simp [Circle.zeros, lin, List.getElem?_replicate]
      omega

/-- the arrays handed to `loadLCQP` -/
structure Arrays.Are (N : Nat) (dir : Nat → α × α) (a : Arrays α) : Prop where
  Q : MatHas (2 + 2 * N) (2 + 2 * N) hess a.Q
  g : VecHas (2 + 2 * N) lin a.g
  L : MatHas N (2 + 2 * N) left a.L
  R : MatHas N (2 + 2 * N) right a.R
  A : MatHas (N + 1) (2 + 2 * N) (cons N dir) a.A
  lbA : VecHas (N + 1) (fun _ => one) a.lbA
  ubA : VecHas (N + 1) (fun _ => one) a.ubA
  x0 : VecHas (2 + 2 * N) guess a.x0

/-- the arrays after `k` rounds -/
structure Part (N : Nat) (dir : Nat → α × α) (k : Nat) (a : Arrays α) : Prop where
  Q : MatHas (2 + 2 * N) (2 + 2 * N) hess a.Q
  g : VecHas (2 + 2 * N) lin a.g
  L : MatHas N (2 + 2 * N) (fun r c => if r < k then left r c else zero) a.L
  R : MatHas N (2 + 2 * N) (fun r c => if r < k then right r c else zero) a.R
  A : MatHas (N + 1) (2 + 2 * N) (fun r c => if (r < N ∧ r < k) ∨ (N ≤ r ∧ c < 2 * k + 2) then cons N dir r c else zero) a.A
  lbA : VecHas (N + 1) (fun r => if r < k then one else zero) a.lbA
  ubA : VecHas (N + 1) (fun r => if r < k then one else zero) a.ubA
  x0 : VecHas (2 + 2 * N) (fun c => if c < 2 * k + 2 then guess c else zero) a.x0

theorem row_ok {N : Nat} {dir : Nat → α × α} {k : Nat} {a : Arrays α} (hk : k < N) (h : Part N dir k a) :
    ∃ a', row N (2 + 2 * N) dir k a = .ok a' ∧ Part N dir (k + 1) a' := by
  obtain ⟨A1, e1, w1⟩ := h.A.write (i := k) (j := 0) (by omega) (by omega) (dir k).1
  obtain ⟨A2, e2, w2⟩ := w1.write (i := k) (j := 1) (by omega) (by omega) (dir k).2
  obtain ⟨A3, e3, w3⟩ := w2.write (i := k) (j := 2 + 2 * k) (by omega) (by omega) (ofInt 1)
  obtain ⟨A4, e4, w4⟩ := w3.write (i := N) (j := 3 + 2 * k) (by omega) (by omega) (ofInt 1)
  obtain ⟨L1, e5, w5⟩ := h.L.write (i := k) (j := 2 + 2 * k) (by omega) (by omega) (ofInt 1)
  obtain ⟨R1, e6, w6⟩ := h.R.write (i := k) (j := 3 + 2 * k) (by omega) (by omega) (ofInt 1)
  obtain ⟨l1, e7, w7⟩ := h.lbA.write (i := k) (by omega) (ofInt 1)
  obtain ⟨u1, e8, w8⟩ := h.ubA.write (i := k) (by omega) (ofInt 1)
  obtain ⟨x1, e9, w9⟩ := h.x0.write (i := 2 * k + 2) (by omega) (ofInt 1)
  obtain ⟨x2, e10, w10⟩ := w9.write (i := 2 * k + 3) (by omega) (ofInt 1)
  rw [← Nat.add_assoc] at e3 e4 e5 e6
  refine ⟨{ a with A := A4, L := L1, R := R1, lbA := l1, ubA := u1, x0 := x2 }, ?_, h.Q, h.g, ?_, ?_, ?_, ?_, ?_, ?_⟩
  · rw [row, e1, ok_bind, e2, ok_bind, e3, ok_bind, e4, ok_bind, e5, ok_bind, e6, ok_bind, e7, ok_bind, e8, ok_bind, e9,
      ok_bind, e10, ok_bind]
  · refine w5.congr fun r hr c hc => ?_
    simp only [ofInt, left, one]
    split_ifs <;> first | rfl | (exfalso; omega)
  · refine w6.congr fun r hr c hc => ?_
    simp only [ofInt, right, one]
    split_ifs <;> first | rfl | (exfalso; omega)
  · refine w4.congr fun r hr c hc => ?_
    have hN : ¬ N < N := lt_irrefl N
    rcases Nat.lt_or_ge r N with hrN | hrN
    · rw [if_neg (by omega)]
      by_cases hrk : r = k
      · subst hrk
        rw [if_pos (by omega : (r < N ∧ r < r + 1) ∨ (N ≤ r ∧ c < 2 * (r + 1) + 2)), cons, if_pos hrN]
        simp only [true_and, ofInt, one]
        split_ifs <;> first | rfl | (exfalso; omega)
      · rw [if_neg (by omega), if_neg (by omega), if_neg (by omega)]
        have : (r < N ∧ r < k ∨ N ≤ r ∧ c < 2 * k + 2) ↔ (r < N ∧ r < k + 1 ∨ N ≤ r ∧ c < 2 * (k + 1) + 2) := by omega
        simp only [this]
    · have : r = N := by omega
      subst this
      rw [if_neg (by omega : ¬ (r = k ∧ c = 2 + 2 * k)), if_neg (by omega : ¬ (r = k ∧ c = 1)),
        if_neg (by omega : ¬ (r = k ∧ c = 0)), cons, if_neg hN]
      simp only [true_and, ofInt, one]
      split_ifs <;> first | rfl | (exfalso; omega)
  · refine w7.congr fun r hr => ?_
    simp only [ofInt, one]
    split_ifs <;> first | rfl | (exfalso; omega)
  · refine w8.congr fun r hr => ?_
    simp only [ofInt, one]
    split_ifs <;> first | rfl | (exfalso; omega)
  · refine w10.congr fun r hr => ?_
    simp only [ofInt, one, guess]
    split_ifs <;> first | rfl | (exfalso; omega)

theorem build_ok (N : Nat) (dir : Nat → α × α) : ∃ a, build N dir = .ok a ∧ a.Are N dir := by
  obtain ⟨x1, e1, w1⟩ := (VecHas.zeros (α := α) (2 + 2 * N)).write (i := 0) (by omega) (lit 5 1)
  obtain ⟨x2, e2, w2⟩ := w1.write (i := 1) (by omega) (-. lit 6 1)
  obtain ⟨Q, eQ, wQ⟩ := buildQ_ok (α := α) (nV := 2 + 2 * N) (by omega)
  obtain ⟨g, eg, wg⟩ := buildG_ok (α := α) (nV := 2 + 2 * N) (by omega)
  obtain ⟨b, eb, hb⟩ := loop_inv (Part N dir) N (row N (2 + 2 * N) dir)
    ⟨Q, g, Circle.zeros (N * (2 + 2 * N)), Circle.zeros (N * (2 + 2 * N)), Circle.zeros ((N + 1) * (2 + 2 * N)),
      Circle.zeros (N + 1), Circle.zeros (N + 1), x2⟩
    (by
      refine ⟨wQ, wg, ?_, ?_, ?_, ?_, ?_, ?_⟩
      · exact (MatHas.zeros _ _).congr fun r hr c hc => by simp
      · exact (MatHas.zeros _ _).congr fun r hr c hc => by simp
      · refine (MatHas.zeros _ _).congr fun r hr c hc => ?_
        simp only [cons]
        split_ifs <;> first | rfl | (exfalso; omega)
      · exact (VecHas.zeros _).congr fun r hr => by simp
      · exact (VecHas.zeros _).congr fun r hr => by simp
      · refine w2.congr fun r hr => ?_
        simp only [guess]
        split_ifs <;> first | rfl | (exfalso; omega))
    (fun k hk a ha => row_ok hk ha)
  obtain ⟨l1, e7, w7⟩ := hb.lbA.write (i := N) (by omega) (ofInt 1)
  obtain ⟨u1, e8, w8⟩ := hb.ubA.write (i := N) (by omega) (ofInt 1)
  refine ⟨{ b with lbA := l1, ubA := u1 }, ?_, hb.Q, hb.g, ?_, ?_, ?_, ?_, ?_, ?_⟩
  · have r0 : rd (xRef : List α) 0 = .ok (lit 5 1) := rfl
    have r1 : rd (xRef : List α) 1 = .ok (-. lit 6 1) := rfl
    simp only [build, r0, ok_bind, e1, r1, e2, eQ, eg, eb, e7, e8]
  · exact hb.L.congr fun r hr c hc => by rw [if_pos hr]
  · exact hb.R.congr fun r hr c hc => by rw [if_pos hr]
  · exact hb.A.congr fun r hr c hc => by rw [if_pos (by omega)]
  · refine w7.congr fun r hr => ?_
    simp only [ofInt, one]
    split_ifs <;> first | rfl | (exfalso; omega)
  · refine w8.congr fun r hr => ?_
    simp only [ofInt, one]
    split_ifs <;> first | rfl | (exfalso; omega)
  · exact hb.x0.congr fun r hr => by rw [if_pos (by omega)]

end LCQ.Circle
