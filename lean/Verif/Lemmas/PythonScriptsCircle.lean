import Verif.Lemmas.PythonScriptsRun
import Verif.Lemmas.Circle

/-!
# Helper lemmas for C80: the arrays of OptimizeOnCircle.py
-/

namespace LCQ.PyScript
open Scalar
open Circle (MatHas VecHas)

variable {α : Type} [Scalar α]

/-- array with `m` rows, `n` columns and the entries `F` -/
structure NHas (m n : Nat) (F : Nat → Nat → α) (A : NArr α) : Prop where
  rows : A.m = m
  cols : A.n = n
  data : MatHas m n F A.data

theorem NHas.congr {m n : Nat} {F G : Nat → Nat → α} {A : NArr α} (h : NHas m n F A)
    (he : ∀ i < m, ∀ j < n, F i j = G i j) : NHas m n G A := ⟨h.rows, h.cols, h.data.congr he⟩

theorem NHas.put {m n : Nat} {F : Nat → Nat → α} {A : NArr α} (h : NHas m n F A) {i j : Nat} (hi : i < m) (hj : j < n) (v : α) :
    ∃ A', A.put i j v = .ok A' ∧ NHas m n (fun a b => if a = i ∧ b = j then v else F a b) A' := by
  obtain ⟨l, hl, w⟩ := h.data.write hi hj v
  refine ⟨{ A with data := l }, ?_, h.rows, h.cols, w⟩
  rw [NArr.put, h.rows, h.cols, if_pos ⟨hi, hj⟩, hl]
  rfl

theorem put1_ok {n : Nat} {F : Nat → α} {l : List α} (h : VecHas n F l) {i : Nat} (hi : i < n) (v : α) :
    ∃ l', put1 l i v = .ok l' ∧ VecHas n (fun a => if a = i then v else F a) l' := by
  obtain ⟨l', hl, w⟩ := h.write hi v
  refine ⟨l', ?_, w⟩
  rw [put1, h.1, if_pos hi, hl]
  rfl

theorem zeros2_has (m n : Nat) : NHas m n (fun _ _ => (zero : α)) (zeros2 m n) := ⟨rfl, rfl, MatHas.zeros m n⟩

theorem zeros1_has (n : Nat) : VecHas n (fun _ => (zero : α)) (zeros1 n) := VecHas.zeros n

theorem forRange_inv {β : Type} (P : Nat → β → Prop) (n : Nat) (f : Nat → β → PY β) (b : β) (h0 : P 0 b)
    (hs : ∀ k < n, ∀ b, P k b → ∃ b', f k b = .ok b' ∧ P (k + 1) b') : ∃ b', forRange n f b = .ok b' ∧ P n b' := by
  induction n with
  | zero => exact ⟨b, rfl, h0⟩
  | succ n ih =>
    obtain ⟨b1, e1, p1⟩ := ih fun k hk => hs k (by omega)
    obtain ⟨b2, e2, p2⟩ := hs n (by omega) b1 p1
    exact ⟨b2, by rw [forRange, e1, py_bind, e2], p2⟩

omit [Scalar α] in
theorem rows_has (m n : Nat) (f : Nat → Nat → α) :
    MatHas m n f ((List.range m).flatMap fun i => (List.range n).map (f i)) := by
  induction m with
  | zero => exact ⟨by simp, fun i hi => absurd hi (by omega)⟩
  | succ m ih =>
    rw [List.range_succ, List.flatMap_append]
    have hl := ih.1
    refine ⟨by simp [hl, Nat.add_mul], fun i hi j hj => ?_⟩
    rcases Nat.lt_or_ge i m with h | h
    · rw [List.getElem?_append_left (by rw [hl]; exact Circle.idx_lt h hj), ih.2 i h j hj]
    · have : i = m := by omega
      subst this
      rw [List.getElem?_append_right (by rw [hl]; omega), hl, Nat.add_sub_cancel_left]
      simp [hj]

theorem NHas.columns {m n : Nat} {F : Nat → Nat → α} {A : NArr α} (h : NHas m n F A) : MatHas n m (fun j i => F i j) A.columns := by
  rw [NArr.columns, h.rows, h.cols]
  refine (rows_has n m _).congr fun j hj i hi => ?_
  rw [List.getD_eq_getElem?_getD, h.data.2 i hi j hj]
  rfl

theorem NHas.T {m n : Nat} {F : Nat → Nat → α} {A : NArr α} (h : NHas m n F A) : NHas n m (fun j i => F i j) A.T :=
  ⟨h.cols, h.rows, h.columns⟩

omit [Scalar α] in
theorem MatHas.ext {m n : Nat} {F : Nat → Nat → α} {l l' : List α} (h : MatHas m n F l) (h' : MatHas m n F l') : l = l' := by
  refine List.ext_getElem? fun t => ?_
  rcases Nat.lt_or_ge t (m * n) with ht | ht
  · have hn : 0 < n := Nat.pos_of_ne_zero (by rintro rfl; simp at ht)
    have hd : t / n * n + t % n = t := by rw [Nat.mul_comm]; exact Nat.div_add_mod t n
    have h1 := h.2 (t / n) (Nat.div_lt_of_lt_mul (by rwa [Nat.mul_comm])) (t % n) (Nat.mod_lt _ hn)
    have h2 := h'.2 (t / n) (Nat.div_lt_of_lt_mul (by rwa [Nat.mul_comm])) (t % n) (Nat.mod_lt _ hn)
    rw [hd] at h1 h2
    rw [h1, h2]
  · rw [List.getElem?_eq_none (by rw [h.1]; exact ht), List.getElem?_eq_none (by rw [h'.1]; exact ht)]

omit [Scalar α] in
theorem VecHas.ext {n : Nat} {F : Nat → α} {l l' : List α} (h : VecHas n F l) (h' : VecHas n F l') : l = l' := by
  refine List.ext_getElem? fun t => ?_
  rcases Nat.lt_or_ge t n with ht | ht
  · rw [h.2 t ht, h'.2 t ht]
  · rw [List.getElem?_eq_none (by rw [h.1]; exact ht), List.getElem?_eq_none (by rw [h'.1]; exact ht)]

theorem circleQ_ok {nV : Nat} (h : 2 ≤ nV) : ∃ Q : NArr α, circleQ nV = .ok Q ∧ NHas nV nV Circle.hess Q := by
  have w0 := zeros2_has (α := α) nV nV
  obtain ⟨Q1, e1, w1⟩ := w0.put (i := 0) (j := 0) (by omega) (by omega) (ofInt 17)
  obtain ⟨Q2, e2, w2⟩ := w1.put (i := 1) (j := 1) (by omega) (by omega) (ofInt 17)
  obtain ⟨Q3, e3, w3⟩ := w2.put (i := 0) (j := 1) (by omega) (by omega) (ofInt (-15))
  obtain ⟨Q4, e4, w4⟩ := w3.put (i := 1) (j := 0) (by omega) (by omega) (ofInt (-15))
  obtain ⟨Q5, e5, w5⟩ := forRange_inv (fun k => NHas nV nV fun i j => if i = j ∧ k + 2 ≤ i then zero else Circle.hess i j) (nV - 2)
    (fun k Q => Q.put (k + 2) (k + 2) (lit 5 12)) Q4
    (by
      refine w4.congr fun i hi j hj => ?_
      unfold Circle.hess
      simp only [ofInt]
      split_ifs <;> first | rfl | (exfalso; omega))
    (by
      intro k hk t ht
      obtain ⟨t', e, w⟩ := ht.put (i := k + 2) (j := k + 2) (by omega) (by omega) (lit 5 12)
      refine ⟨t', e, w.congr fun i hi j hj => ?_⟩
      unfold Circle.hess
      split_ifs <;> first | rfl | (exfalso; omega))
  refine ⟨Q5, ?_, w5.congr fun i hi j hj => ?_⟩
  · rw [circleQ, e1, py_bind, e2, py_bind, e3, py_bind, e4, py_bind, e5]
  · rw [if_neg (by omega)]

/-- the linear term of the script -/
def lin (j : Nat) : α :=
  if j = 0 then -. (ofInt 17 *. lit 5 1 +. ofInt (-15) *. (-. lit 6 1))
  else if j = 1 then -. (ofInt (-15) *. lit 5 1 +. ofInt 17 *. (-. lit 6 1)) else zero

/-- the arrays after `k` rounds -/
structure Part (N : Nat) (dir : Nat → α × α) (k : Nat) (a : Arrays α) : Prop where
  Q : NHas (2 + 2 * N) (2 + 2 * N) Circle.hess a.Q
  g : VecHas (2 + 2 * N) lin a.g
  L : NHas N (2 + 2 * N) (fun r c => if r < k then Circle.left r c else zero) a.L
  R : NHas N (2 + 2 * N) (fun r c => if r < k then Circle.right r c else zero) a.R
  A : NHas (N + 1) (2 + 2 * N) (fun r c => if (r < N ∧ r < k) ∨ (N ≤ r ∧ c < 2 * k + 2) then Circle.cons N dir r c else zero) a.A
  lbA : VecHas (N + 1) (fun r => if r < k then one else zero) a.lbA
  ubA : VecHas (N + 1) (fun r => if r < k then one else zero) a.ubA
  x0 : VecHas (2 + 2 * N) (fun c => if c < 2 * k + 2 then Circle.guess c else zero) a.x0

theorem row_ok {N : Nat} {dir : Nat → α × α} {k : Nat} {a : Arrays α} (hk : k < N) (h : Part N dir k a) :
    ∃ a', circleRow N dir k a = .ok a' ∧ Part N dir (k + 1) a' := by
  obtain ⟨A1, e1, w1⟩ := h.A.put (i := k) (j := 0) (by omega) (by omega) (dir k).1
  obtain ⟨A2, e2, w2⟩ := w1.put (i := k) (j := 1) (by omega) (by omega) (dir k).2
  obtain ⟨A3, e3, w3⟩ := w2.put (i := k) (j := 2 + 2 * k) (by omega) (by omega) (ofInt 1)
  obtain ⟨A4, e4, w4⟩ := w3.put (i := N) (j := 3 + 2 * k) (by omega) (by omega) (ofInt 1)
  obtain ⟨L1, e5, w5⟩ := h.L.put (i := k) (j := 2 + 2 * k) (by omega) (by omega) (ofInt 1)
  obtain ⟨R1, e6, w6⟩ := h.R.put (i := k) (j := 3 + 2 * k) (by omega) (by omega) (ofInt 1)
  obtain ⟨l1, e7, w7⟩ := put1_ok h.lbA (i := k) (by omega) (ofInt 1)
  obtain ⟨u1, e8, w8⟩ := put1_ok h.ubA (i := k) (by omega) (ofInt 1)
  obtain ⟨x1, e9, w9⟩ := put1_ok h.x0 (i := 2 * k + 2) (by omega) (ofInt 1)
  obtain ⟨x2, e10, w10⟩ := put1_ok w9 (i := 2 * k + 3) (by omega) (ofInt 1)
  refine ⟨{ a with A := A4, L := L1, R := R1, lbA := l1, ubA := u1, x0 := x2 }, ?_, h.Q, h.g, ?_, ?_, ?_, ?_, ?_, ?_⟩
  · rw [circleRow, e1, py_bind, e2, py_bind, e3, py_bind, e4, py_bind, e5, py_bind, e6, py_bind, e7, py_bind, e8, py_bind, e9,
      py_bind, e10, py_bind]
  · refine w5.congr fun r hr c hc => ?_
    simp only [ofInt, Circle.left, one]
    split_ifs <;> first | rfl | (exfalso; omega)
  · refine w6.congr fun r hr c hc => ?_
    simp only [ofInt, Circle.right, one]
    split_ifs <;> first | rfl | (exfalso; omega)
  · refine w4.congr fun r hr c hc => ?_
    have hN : ¬ N < N := lt_irrefl N
    rcases Nat.lt_or_ge r N with hrN | hrN
    · rw [if_neg (by omega)]
      by_cases hrk : r = k
      · subst hrk
        rw [if_pos (by omega : (r < N ∧ r < r + 1) ∨ (N ≤ r ∧ c < 2 * (r + 1) + 2)), Circle.cons, if_pos hrN]
        simp only [true_and, ofInt, one]
        split_ifs <;> first | rfl | (exfalso; omega)
      · rw [if_neg (by omega), if_neg (by omega), if_neg (by omega)]
        have : (r < N ∧ r < k ∨ N ≤ r ∧ c < 2 * k + 2) ↔ (r < N ∧ r < k + 1 ∨ N ≤ r ∧ c < 2 * (k + 1) + 2) := by omega
        simp only [this]
    · have : r = N := by omega
      subst this
      rw [if_neg (by omega : ¬ (r = k ∧ c = 2 + 2 * k)), if_neg (by omega : ¬ (r = k ∧ c = 1)),
        if_neg (by omega : ¬ (r = k ∧ c = 0)), Circle.cons, if_neg hN]
      simp only [true_and, ofInt, one]
      split_ifs <;> first | rfl | (exfalso; omega)
  · refine w7.congr fun r hr => ?_
    simp only [ofInt, one]
    split_ifs <;> first | rfl | (exfalso; omega)
  · refine w8.congr fun r hr => ?_
    simp only [ofInt, one]
    split_ifs <;> first | rfl | (exfalso; omega)
  · refine w10.congr fun r hr => ?_
    simp only [ofInt, one, Circle.guess]
    split_ifs <;> first | rfl | (exfalso; omega)

theorem circleArrays_ok (N : Nat) (dir : Nat → α × α) : ∃ a, circleArrays N dir = .ok a ∧
    NHas (2 + 2 * N) (2 + 2 * N) Circle.hess a.Q ∧ VecHas (2 + 2 * N) lin a.g ∧ NHas N (2 + 2 * N) Circle.left a.L ∧
    NHas N (2 + 2 * N) Circle.right a.R ∧ NHas (N + 1) (2 + 2 * N) (Circle.cons N dir) a.A ∧
    VecHas (N + 1) (fun _ => one) a.lbA ∧ VecHas (N + 1) (fun _ => one) a.ubA ∧ VecHas (2 + 2 * N) Circle.guess a.x0 := by
  obtain ⟨x1, e1, w1⟩ := put1_ok (zeros1_has (α := α) (2 + 2 * N)) (i := 0) (by omega) (lit 5 1)
  obtain ⟨x2, e2, w2⟩ := put1_ok w1 (i := 1) (by omega) (-. lit 6 1)
  obtain ⟨Q, eQ, wQ⟩ := circleQ_ok (α := α) (nV := 2 + 2 * N) (by omega)
  obtain ⟨g1, eg1, wg1⟩ := put1_ok (zeros1_has (α := α) (2 + 2 * N)) (i := 0) (by omega)
    (-. (ofInt 17 *. lit 5 1 +. ofInt (-15) *. (-. lit 6 1)))
  obtain ⟨g2, eg2, wg2⟩ := put1_ok wg1 (i := 1) (by omega) (-. (ofInt (-15) *. lit 5 1 +. ofInt 17 *. (-. lit 6 1)))
  obtain ⟨b, eb, hb⟩ := forRange_inv (Part N dir) N (circleRow N dir)
    ⟨Q, g2, zeros2 N (2 + 2 * N), zeros2 N (2 + 2 * N), zeros2 (N + 1) (2 + 2 * N), zeros1 (N + 1), zeros1 (N + 1), x2⟩
    (by
      refine ⟨wQ, ?_, ?_, ?_, ?_, ?_, ?_, ?_⟩
      · refine wg2.congr fun r hr => ?_
        unfold lin
        split_ifs <;> first | rfl | (exfalso; omega)
      · exact (zeros2_has _ _).congr fun r hr c hc => by simp
      · exact (zeros2_has _ _).congr fun r hr c hc => by simp
      · refine (zeros2_has _ _).congr fun r hr c hc => ?_
        simp only [Circle.cons]
        split_ifs <;> first | rfl | (exfalso; omega)
      · exact (zeros1_has _).congr fun r hr => by simp
      · exact (zeros1_has _).congr fun r hr => by simp
      · refine w2.congr fun r hr => ?_
        simp only [Circle.guess]
        split_ifs <;> first | rfl | (exfalso; omega))
    (fun k hk a ha => row_ok hk ha)
  obtain ⟨l1, e7, w7⟩ := put1_ok hb.lbA (i := N) (by omega) (ofInt 1)
  obtain ⟨u1, e8, w8⟩ := put1_ok hb.ubA (i := N) (by omega) (ofInt 1)
  refine ⟨{ b with lbA := l1, ubA := u1 }, ?_, hb.Q, hb.g, ?_, ?_, ?_, ?_, ?_, ?_⟩
  · simp only [circleArrays, e1, py_bind, e2, eQ, eg1, eg2, eb, e7, e8]
  · exact hb.L.congr fun r hr c hc => by rw [if_pos hr]
  · exact hb.R.congr fun r hr c hc => by rw [if_pos hr]
  · exact hb.A.congr fun r hr c hc => by rw [if_pos (by omega)]
  · refine w7.congr fun r hr => ?_
    simp only [ofInt, one]
    split_ifs <;> first | rfl | (exfalso; omega)
  · refine w8.congr fun r hr => ?_
    simp only [ofInt, one]
    split_ifs <;> first | rfl | (exfalso; omega)
  · exact hb.x0.congr fun r hr => by rw [if_pos (by omega)]

theorem hess_symm (i j : Nat) : (Circle.hess i j : α) = Circle.hess j i := by
  unfold Circle.hess
  split_ifs <;> first | rfl | (exfalso; omega) | (exfalso; simp_all; done)

theorem vec_some {l : List α} (h : 0 < l.length) : vecPtr l = some l := if_pos h

theorem eigen_some {A : NArr α} (h : 0 < A.columns.length) : A.eigen.ptr = some A.columns := if_pos h

theorem eigen_raw {A : NArr α} (hm : 0 < A.m) (hn : 0 < A.n) (h : 0 < A.columns.length) : A.eigen.rawPtr = some A.columns := by
  rw [Eigen.rawPtr, if_pos (show 0 < A.eigen.n ∧ 0 < A.eigen.m from ⟨hn, hm⟩), eigen_some h]

/-- the data of the script are those of OptimizeOnCircle.cpp except for the rounding of the linear term -/
theorem circle_same {N : Nat} (hN : 1 ≤ N) (dir : Nat → α × α) : ∃ a b, circleArrays N dir = .ok a ∧ Circle.build N dir = .ok b ∧
    b.Are N dir ∧ a.args.args = { b.args with g := some a.g } ∧ VecHas (2 + 2 * N) lin a.g := by
  obtain ⟨a, ha, hQ, hg, hL, hR, hA, hl, hu, hx⟩ := circleArrays_ok N dir
  obtain ⟨b, hb, hB⟩ := Circle.build_ok N dir
  refine ⟨a, b, ha, hb, hB, ?_, hg⟩
  have pos : ∀ k, 0 < k → 0 < k * (2 + 2 * N) := fun k hk => Nat.mul_pos hk (by omega)
  have q1 : a.Q.columns = b.Q := MatHas.ext (hQ.columns.congr fun i _ j _ => hess_symm j i) hB.Q
  have q2 : a.L.T.columns = b.L := MatHas.ext hL.T.columns hB.L
  have q3 : a.R.T.columns = b.R := MatHas.ext hR.T.columns hB.R
  have q4 : a.A.T.columns = b.A := MatHas.ext hA.T.columns hB.A
  have q5 : a.lbA = b.lbA := VecHas.ext hl hB.lbA
  have q6 : a.ubA = b.ubA := VecHas.ext hu hB.ubA
  have q7 : a.x0 = b.x0 := VecHas.ext hx hB.x0
  have p1 : a.Q.eigen.ptr = some b.Q := by rw [eigen_some (by rw [q1, hB.Q.1]; exact pos _ (by omega)), q1]
  have p2 : a.L.T.eigen.ptr = some b.L := by rw [eigen_some (by rw [q2, hB.L.1]; exact pos _ hN), q2]
  have p3 : a.R.T.eigen.ptr = some b.R := by rw [eigen_some (by rw [q3, hB.R.1]; exact pos _ hN), q3]
  have p4 : a.A.T.eigen.rawPtr = some b.A := by rw [eigen_raw (by rw [hA.T.rows]; omega) (by rw [hA.T.cols]; omega) (by rw [q4, hB.A.1]; exact pos _ (by omega)), q4]
  have p5 : vecPtr a.lbA = some b.lbA := by rw [q5, vec_some (by rw [hB.lbA.1]; omega)]
  have p6 : vecPtr a.ubA = some b.ubA := by rw [q6, vec_some (by rw [hB.ubA.1]; omega)]
  have p7 : vecPtr a.x0 = some b.x0 := by rw [q7, vec_some (by rw [hB.x0.1]; omega)]
  have p8 : vecPtr a.g = some a.g := vec_some (by rw [hg.1]; omega)
  have pe : vecPtr ([] : List α) = none := rfl
  simp only [PyDense.args, Arrays.args, Circle.Arrays.args, p1, p2, p3, p4, p5, p6, p7, p8, pe]

end LCQ.PyScript
