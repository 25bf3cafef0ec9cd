import Verif.Spec.Rounding
import Verif.Lemmas.Dense
import Verif.Lemmas.Exact
import Mathlib.Tactic.Linarith
import Mathlib.Tactic.Ring
import Mathlib.Tactic.Positivity
import Mathlib.Tactic.LinearCombination

/-!
# Rounding errors of sums and products
-/

set_option linter.unusedSectionVars false

namespace LCQ
open Scalar
open scoped Matrix

variable {α : Type} [Scalar α] {K : Type} [Field K] [LinearOrder K] [IsStrictOrderedRing K] {u t : K}

/-- If `a` is finite, it approximates `v` up to `k` roundings, relative to the magnitude `m`. -/
def Apx (F : Rounds α K u t) (k : Nat) (a : α) (v m : K) : Prop :=
  |v| ≤ m ∧ ∀ x, F.val a = some x → |x - v| ≤ ((1 + u) ^ k - 1) * m

variable {F : Rounds α K u t} {a b : α} {v w m l : K} {k j : Nat}

theorem pow1 (F : Rounds α K u t) (k : Nat) : 1 ≤ (1 + u) ^ k := one_le_pow₀ (by linarith [F.u0])

theorem Apx.m0 (h : Apx F k a v m) : 0 ≤ m := (abs_nonneg _).trans h.1

theorem Apx.val (F : Rounds α K u t) (a : α) : Apx F 0 a (F.v a) |F.v a| := by
  refine ⟨le_refl _, fun x hx => ?_⟩
  simp [Rounds.v, hx]

theorem Apx.mono (h : Apx F k a v m) (hk : k ≤ j) (hm : m ≤ l) : Apx F j a v l := by
  refine ⟨h.1.trans hm, fun x hx => (h.2 x hx).trans ?_⟩
  have h1 := pow1 F k
  have h2 : (1 + u) ^ k ≤ (1 + u) ^ j := pow_le_pow_right₀ (by linarith [F.u0]) hk
  exact mul_le_mul (by linarith) hm h.m0 (by linarith)

theorem Apx.depth (h : Apx F k a v m) (hk : k ≤ j) : Apx F j a v m := h.mono hk le_rfl

theorem Apx.zero (F : Rounds α K u t) : Apx F 0 Scalar.zero 0 0 := by
  refine ⟨by simp, fun x hx => ?_⟩
  rw [F.zero] at hx
  injection hx with hx
  simp [← hx]

theorem Apx.one (F : Rounds α K u t) : Apx F 0 Scalar.one 1 1 := by
  refine ⟨by simp, fun x hx => ?_⟩
  rw [F.one] at hx
  injection hx with hx
  simp [← hx]

theorem Apx.neg (h : Apx F k a v m) : Apx F k (-. a) (-v) m := by
  refine ⟨by rw [abs_neg]; exact h.1, fun x hx => ?_⟩
  rw [F.neg] at hx
  cases ha : F.val a with
  | none => rw [ha] at hx; cases hx
  | some y =>
    rw [ha] at hx
    injection hx with hx
    have := h.2 y ha
    rw [← hx, show -y - -v = -(y - v) by ring, abs_neg]
    exact this

/-- the value of an approximation is bounded by its magnitude -/
theorem Apx.bnd (h : Apx F k a v m) {x : K} (hx : F.val a = some x) : |x| ≤ (1 + u) ^ k * m := by
  have h1 := h.2 x hx
  have h2 : |x| ≤ |x - v| + |v| := by simpa using abs_add_le (x - v) v
  have h3 := h.1
  linarith

theorem apx_add_aux (F : Rounds α K u t) {c s v m : K} {k : Nat} (hs : |s| ≤ (1 + u) ^ k * m) (hv : |s - v| ≤ ((1 + u) ^ k - 1) * m)
    (hc : |c - s| ≤ u * |s|) : |c - v| ≤ ((1 + u) ^ (k + 1) - 1) * m := by
  have h2 : |c - v| ≤ |c - s| + |s - v| := by simpa using abs_add_le (c - s) (s - v)
  have h3 : u * |s| ≤ u * ((1 + u) ^ k * m) := mul_le_mul_of_nonneg_left hs F.u0
  rw [pow_succ]
  linarith

theorem Apx.add (h : Apx F k a v m) (h' : Apx F k b w l) : Apx F (k + 1) (a +. b) (v + w) (m + l) := by
  refine ⟨(abs_add_le _ _).trans (add_le_add h.1 h'.1), fun c hc => ?_⟩
  obtain ⟨x, y, hx, hy, he⟩ := F.add a b c hc
  refine apx_add_aux F (s := x + y) ?_ ?_ he
  · have h1 := h.bnd hx
    have h2 := h'.bnd hy
    have := abs_add_le x y
    linarith
  · have h1 := h.2 x hx
    have h2 := h'.2 y hy
    have := abs_add_le (x - v) (y - w)
    rw [show x + y - (v + w) = (x - v) + (y - w) by ring]
    linarith

theorem Apx.sub (h : Apx F k a v m) (h' : Apx F k b w l) : Apx F (k + 1) (a -. b) (v - w) (m + l) := by
  refine ⟨(abs_sub _ _).trans (add_le_add h.1 h'.1), fun c hc => ?_⟩
  obtain ⟨x, y, hx, hy, he⟩ := F.sub a b c hc
  refine apx_add_aux F (s := x - y) ?_ ?_ he
  · have h1 := h.bnd hx
    have h2 := h'.bnd hy
    have := abs_sub x y
    linarith
  · have h1 := h.2 x hx
    have h2 := h'.2 y hy
    have := abs_sub (x - v) (y - w)
    rw [show x - y - (v - w) = (x - v) - (y - w) by ring]
    linarith

theorem apx_under (F : Rounds α K u t) {c s v m : K} {k : Nat} (hm : 0 ≤ m) (hs : |s| ≤ (1 + u) ^ k * m)
    (hv : |s - v| ≤ ((1 + u) ^ k - 1) * m) (hc : |c - s| ≤ u * (|s| + t)) :
    |c - v| ≤ ((1 + u) ^ (k + 1) - 1) * (m + t) := by
  have h2 : |c - v| ≤ |c - s| + |s - v| := by simpa using abs_add_le (c - s) (s - v)
  have h3 : u * |s| ≤ u * ((1 + u) ^ k * m) := mul_le_mul_of_nonneg_left hs F.u0
  have h4 : 1 + u ≤ (1 + u) ^ (k + 1) := le_self_pow₀ (by linarith [F.u0]) (by omega)
  have h5 : u * t ≤ ((1 + u) ^ (k + 1) - 1) * t := mul_le_mul_of_nonneg_right (by linarith) F.t0
  have h6 : (1 + u) ^ (k + 1) = (1 + u) ^ k * (1 + u) := pow_succ _ _
  have h7 : ((1 + u) ^ (k + 1) - 1) * m = (1 + u) ^ k * m * u + ((1 + u) ^ k - 1) * m := by rw [h6]; ring
  have h8 : ((1 + u) ^ (k + 1) - 1) * (m + t) = ((1 + u) ^ (k + 1) - 1) * m + ((1 + u) ^ (k + 1) - 1) * t := by ring
  rw [h8, h7]
  linarith

theorem Apx.mul (h : Apx F k a v m) (h' : Apx F j b w l) : Apx F (k + j + 1) (a *. b) (v * w) (m * l + t) := by
  have hm := h.m0
  have hl := h'.m0
  refine ⟨?_, fun c hc => ?_⟩
  · rw [abs_mul]
    have := mul_le_mul h.1 h'.1 (abs_nonneg _) hm
    linarith [F.t0]
  obtain ⟨x, y, hx, hy, he⟩ := F.mul a b c hc
  have h1 := h.bnd hx
  have h2 := h'.bnd hy
  have p1 := pow1 F k
  have p2 := pow1 F j
  refine apx_under F (s := x * y) (mul_nonneg hm hl) ?_ ?_ he
  · rw [abs_mul, pow_add]
    calc |x| * |y| ≤ ((1 + u) ^ k * m) * ((1 + u) ^ j * l) :=
        mul_le_mul h1 h2 (abs_nonneg _) (mul_nonneg (by linarith) hm)
      _ = (1 + u) ^ k * (1 + u) ^ j * (m * l) := by ring
  · have e1 := h.2 x hx
    have e2 := h'.2 y hy
    have : |x * y - v * w| ≤ |x - v| * |y| + |v| * |y - w| := by
      rw [show x * y - v * w = (x - v) * y + v * (y - w) by ring, ← abs_mul, ← abs_mul]
      exact abs_add_le _ _
    have q1 : |x - v| * |y| ≤ (((1 + u) ^ k - 1) * m) * ((1 + u) ^ j * l) :=
      mul_le_mul e1 h2 (abs_nonneg _) (mul_nonneg (by linarith) hm)
    have q2 : |v| * |y - w| ≤ m * (((1 + u) ^ j - 1) * l) := mul_le_mul h.1 e2 (abs_nonneg _) hm
    rw [pow_add]
    have : ((1 + u) ^ k * (1 + u) ^ j - 1) * (m * l) =
        (((1 + u) ^ k - 1) * m) * ((1 + u) ^ j * l) + m * (((1 + u) ^ j - 1) * l) := by ring
    linarith

theorem Apx.half (h : Apx F k a v m) : Apx F (k + 1) (a /. two) (v / 2) (m / 2 + t) := by
  have hm := h.m0
  have h2 : |(2 : K)| = 2 := abs_of_pos two_pos
  refine ⟨?_, fun c hc => ?_⟩
  · rw [abs_div, h2]
    have := h.1
    linarith [F.t0]
  obtain ⟨x, hx, he⟩ := F.half a c hc
  refine apx_under F (s := x / 2) (by linarith) ?_ ?_ he
  · have := h.bnd hx
    rw [abs_div, h2]
    linarith
  · have := h.2 x hx
    rw [show x / 2 - v / 2 = (x - v) / 2 by ring, abs_div, h2]
    linarith

/-- sequential sums -/
theorem Apx.facc {f : Nat → α} {g h : Nat → K} (h0 : Apx F k a v m) {p : Nat} (hf : ∀ i < p, Apx F k (f i) (g i) (h i)) :
    Apx F (k + p) (facc a p f) (v + ∑ i ∈ Finset.range p, g i) (m + ∑ i ∈ Finset.range p, h i) := by
  induction p with
  | zero => simpa [LCQ.facc] using h0
  | succ p ih =>
    rw [LCQ.facc, Finset.sum_range_succ, Finset.sum_range_succ, ← add_assoc v, ← add_assoc m]
    exact (ih fun i hi => hf i (by omega)).add ((hf p (by omega)).depth (by omega))

/-- sequential sums over `Fin p` -/
theorem Apx.facc_fin {p : Nat} {f : Nat → α} {g h : Fin p → K} (h0 : Apx F k a v m) (hf : ∀ i : Fin p, Apx F k (f i) (g i) (h i)) :
    Apx F (k + p) (LCQ.facc a p f) (v + ∑ i, g i) (m + ∑ i, h i) := by
  have := h0.facc (p := p) (f := f) (g := fun i => if hi : i < p then g ⟨i, hi⟩ else 0)
    (h := fun i => if hi : i < p then h ⟨i, hi⟩ else 0) (by intro i hi; rw [dif_pos hi, dif_pos hi]; exact hf ⟨i, hi⟩)
  rw [Finset.sum_range, Finset.sum_range] at this
  simpa using this

theorem Apx.sum {p : Nat} {f : Nat → α} {g h : Fin p → K} (hf : ∀ i : Fin p, Apx F k (f i) (g i) (h i)) :
    Apx F (k + p) (LCQ.facc Scalar.zero p f) (∑ i, g i) (∑ i, h i) := by
  have := ((Apx.zero F).depth (Nat.zero_le k)).facc_fin hf
  simpa using this

/-- the error term grows about linearly with the number of roundings -/
theorem pow_gamma (hu : 0 ≤ u) {k : Nat} (hk : (k : K) * u < 1) : (1 + u) ^ k - 1 ≤ k * u / (1 - k * u) := by
  have hp : 0 < 1 - (k : K) * u := by linarith
  rw [le_div_iff₀ hp]
  suffices (1 + u) ^ k * (1 - k * u) ≤ 1 by linarith
  clear hp hk
  induction k with
  | zero => simp
  | succ k ih =>
    have h0 : (0 : K) ≤ (1 + u) ^ k := pow_nonneg (by linarith) _
    have : (1 + u) * (1 - (k + 1 : K) * u) ≤ 1 - k * u := by
      have : 0 ≤ (k + 1 : K) * (u * u) := mul_nonneg (by positivity) (mul_nonneg hu hu)
      linarith
    calc (1 + u) ^ (k + 1) * (1 - ((k + 1 : Nat) : K) * u) = (1 + u) ^ k * ((1 + u) * (1 - (k + 1 : K) * u)) := by
          push_cast; ring
      _ ≤ (1 + u) ^ k * (1 - k * u) := mul_le_mul_of_nonneg_left this h0
      _ ≤ 1 := ih

end LCQ
