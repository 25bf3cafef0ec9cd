import Mathlib.Data.Matrix.Mul
import Mathlib.Algebra.Order.Archimedean.Basic
import Mathlib.Algebra.Order.BigOperators.Ring.Finset
import Mathlib.Tactic.Linarith
import Mathlib.Tactic.Ring
import Mathlib.Tactic.Positivity

/-!
# Estimates for the number of iterations

Quadratic estimates over an ordered field, and the length of chains in which a function decreases.
-/

namespace LCQ
open scoped Matrix

section
variable {K : Type} [Field K] [LinearOrder K] [IsStrictOrderedRing K] {N : Nat}

theorem dot_self_nonneg (x : Fin N → K) : 0 ≤ x ⬝ᵥ x := Finset.sum_nonneg fun i _ => mul_self_nonneg (x i)

/-- sum of the absolute values of the entries -/
def asum (B : Matrix (Fin N) (Fin N) K) : K := ∑ i, ∑ j, |B i j|

/-- sum of the squares of the entries -/
def ssum (B : Matrix (Fin N) (Fin N) K) : K := ∑ i, ∑ j, B i j ^ 2

theorem asum_nonneg (B : Matrix (Fin N) (Fin N) K) : 0 ≤ asum B :=
  Finset.sum_nonneg fun _ _ => Finset.sum_nonneg fun _ _ => abs_nonneg _

theorem ssum_nonneg (B : Matrix (Fin N) (Fin N) K) : 0 ≤ ssum B :=
  Finset.sum_nonneg fun _ _ => Finset.sum_nonneg fun _ _ => sq_nonneg _

theorem entry_le_dot (x : Fin N → K) (i : Fin N) : x i * x i ≤ x ⬝ᵥ x :=
  Finset.single_le_sum (f := fun i => x i * x i) (fun i _ => mul_self_nonneg (x i)) (Finset.mem_univ i)

/-- upper bound of a quadratic form -/
theorem quad_le (B : Matrix (Fin N) (Fin N) K) (p : Fin N → K) : p ⬝ᵥ (B *ᵥ p) ≤ asum B * (p ⬝ᵥ p) := by
  have h : p ⬝ᵥ (B *ᵥ p) = ∑ i, ∑ j, p i * (B i j * p j) := by
    simp only [dotProduct, Matrix.mulVec, Finset.mul_sum]
  rw [h, asum, Finset.sum_mul]
  refine Finset.sum_le_sum fun i _ => ?_
  rw [Finset.sum_mul]
  refine Finset.sum_le_sum fun j _ => ?_
  have h1 := entry_le_dot p i
  have h2 := entry_le_dot p j
  have h3 : p i * (B i j * p j) ≤ |B i j| * (|p i| * |p j|) := by
    rw [← abs_mul, ← abs_mul]
    refine le_trans (le_abs_self _) (le_of_eq ?_)
    congr 1
    ring
  have h4 : |p i| * |p j| ≤ p ⬝ᵥ p := by
    have := two_mul_le_add_sq (|p i|) (|p j|)
    rw [sq_abs, sq_abs] at this
    nlinarith
  exact h3.trans (mul_le_mul_of_nonneg_left h4 (abs_nonneg _))

/-- Cauchy-Schwarz -/
theorem dot_sq_le (x y : Fin N → K) : (x ⬝ᵥ y) ^ 2 ≤ (x ⬝ᵥ x) * (y ⬝ᵥ y) := by
  have := Finset.sum_mul_sq_le_sq_mul_sq Finset.univ x y
  simpa only [dotProduct, ← pow_two] using this

/-- an entry of a matrix-vector product -/
theorem mulVec_sq_le (B : Matrix (Fin N) (Fin N) K) (p : Fin N → K) (i : Fin N) :
    (B *ᵥ p) i ^ 2 ≤ ssum B * (p ⬝ᵥ p) := by
  refine (dot_sq_le (B i) p).trans (mul_le_mul_of_nonneg_right ?_ (dot_self_nonneg p))
  have := Finset.single_le_sum (f := fun i => ∑ j, B i j ^ 2) (fun i _ => Finset.sum_nonneg fun j _ => sq_nonneg (B i j))
    (Finset.mem_univ i)
  simpa only [dotProduct, ← pow_two, ssum] using this

/-- an entry of the residual after a step of length `a` -/
theorem residual_sq_le (Q D : Matrix (Fin N) (Fin N) K) (p : Fin N → K) {a : K} (h0 : 0 < a) (h1 : a ≤ 1) (i : Fin N) :
    (a * (D *ᵥ p) i - (1 - a) * (Q *ᵥ p) i) ^ 2 ≤ 2 * (ssum Q + ssum D) * (p ⬝ᵥ p) := by
  have hQ := mulVec_sq_le Q p i
  have hD := mulVec_sq_le D p i
  generalize (D *ᵥ p) i = u at *
  generalize (Q *ᵥ p) i = v at *
  have e1 : (a * u) ^ 2 ≤ u ^ 2 := by
    rw [mul_pow]
    have : a ^ 2 ≤ 1 := by nlinarith
    nlinarith [sq_nonneg u]
  have e2 : ((1 - a) * v) ^ 2 ≤ v ^ 2 := by
    rw [mul_pow]
    have : (1 - a) ^ 2 ≤ 1 := by nlinarith
    nlinarith [sq_nonneg v]
  have e3 : (a * u - (1 - a) * v) ^ 2 ≤ 2 * ((a * u) ^ 2 + ((1 - a) * v) ^ 2) := by
    nlinarith [sq_nonneg (a * u + (1 - a) * v)]
  linarith

/-- a linear form against a multiple of the square -/
theorem lin_ge {m : K} (hm : 0 < m) (h x : Fin N → K) : -((h ⬝ᵥ h) / m) ≤ h ⬝ᵥ x + m / 4 * (x ⬝ᵥ x) := by
  have h1 : 0 ≤ ((2 / m) • h + x) ⬝ᵥ ((2 / m) • h + x) := dot_self_nonneg _
  simp only [dotProduct_add, add_dotProduct, dotProduct_smul, smul_dotProduct, smul_eq_mul, dotProduct_comm x h] at h1
  have h2 : 0 ≤ m / 4 * (2 / m * (2 / m * h ⬝ᵥ h) + 2 / m * h ⬝ᵥ x + (2 / m * h ⬝ᵥ x + x ⬝ᵥ x)) := by
    refine mul_nonneg (by positivity) ?_
    linarith
  have h3 : m / 4 * (2 / m * (2 / m * h ⬝ᵥ h) + 2 / m * h ⬝ᵥ x + (2 / m * h ⬝ᵥ x + x ⬝ᵥ x)) =
      h ⬝ᵥ h / m + h ⬝ᵥ x + m / 4 * (x ⬝ᵥ x) := by
    field_simp
    ring
  linarith

theorem lin_le (h x : Fin N → K) : h ⬝ᵥ x ≤ (h ⬝ᵥ h + x ⬝ᵥ x) / 2 := by
  have h1 : 0 ≤ (h - x) ⬝ᵥ (h - x) := dot_self_nonneg _
  simp only [dotProduct_sub, sub_dotProduct, dotProduct_comm x h] at h1
  linarith

end

/-! ## chains -/

/-- `t` steps of the relation lead from the first to the second point -/
inductive Steps {E : Type} (R : E → E → Prop) : Nat → E → E → Prop
  | refl (a : E) : Steps R 0 a a
  | head {t : Nat} {a b c : E} : R a b → Steps R t b c → Steps R (t + 1) a c

theorem Steps.snoc {E : Type} {R : E → E → Prop} {t : Nat} {a b c : E} (h : Steps R t a b) (h' : R b c) :
    Steps R (t + 1) a c := by
  induction h with
  | refl a => exact .head h' (.refl _)
  | head h1 _ ih => exact .head h1 (ih h')

section
variable {K : Type} [Field K] [LinearOrder K] [IsStrictOrderedRing K] [Archimedean K] {E : Type}

/-- one step within a level decreases the function of the level by a constant; a step to a higher level does not increase
the function of the old level -/
structure Level (R : Nat × E → Nat × E → Prop) (W : Nat → E → K) (η : Nat → K) (sz : E → K) (kmax : Nat) : Prop where
  step : ∀ k x k' x', R (k, x) (k', x') → (k' = k ∧ W k x' ≤ W k x - η k) ∨ (k < k' ∧ k' ≤ kmax ∧ W k x' ≤ W k x)
  pos : ∀ k, 0 < η k
  nonneg : ∀ k x z, R z (k, x) → 0 ≤ W k x
  size : ∀ k V, ∃ X, ∀ k' x x', R (k, x) (k', x') → W k x' ≤ V → sz x' ≤ X
  value : ∀ k X, ∃ V, ∀ x, sz x ≤ X → W k x ≤ V

/-- a common bound for finitely many levels -/
theorem common {p : Nat → Nat → Prop} (hmono : ∀ k a b, a ≤ b → p k a → p k b) {m : Nat} (h : ∀ k ≤ m, ∃ b, p k b) :
    ∃ b, ∀ k ≤ m, p k b := by
  induction m with
  | zero =>
    obtain ⟨b, hb⟩ := h 0 (Nat.le_refl 0)
    exact ⟨b, fun k hk => by rw [Nat.le_zero.mp hk]; exact hb⟩
  | succ m ih =>
    obtain ⟨b, hb⟩ := ih fun k hk => h k (by omega)
    obtain ⟨c, hc⟩ := h (m + 1) (Nat.le_refl _)
    refine ⟨b + c, fun k hk => ?_⟩
    by_cases h1 : k = m + 1
    · rw [h1]; exact hmono _ _ _ (by omega) hc
    · exact hmono _ _ _ (by omega) (hb k (by omega))

theorem Level.bound {R : Nat × E → Nat × E → Prop} {W : Nat → E → K} {η : Nat → K} {sz : E → K} {kmax : Nat}
    (h : Level R W η sz kmax) (j : Nat) : ∀ k, kmax - k ≤ j → ∀ X, ∃ B : Nat, ∀ x, sz x ≤ X →
      ∀ t z, Steps R t (k, x) z → t ≤ B := by
  induction j with
  | zero =>
    intro k hk X
    obtain ⟨V, hV⟩ := h.value k X
    obtain ⟨i, hi⟩ := Archimedean.arch V (h.pos k)
    refine ⟨i, fun x hx => ?_⟩
    have hW := (hV x hx).trans hi
    clear hi hV hx
    induction i generalizing x with
    | zero =>
      intro t z hs
      cases hs with
      | refl => exact Nat.le_refl _
      | @head t _ b c hr hs =>
        obtain ⟨k', x'⟩ := b
        exfalso
        have := h.pos k
        rcases h.step k x k' x' hr with ⟨rfl, hd⟩ | ⟨h1, h2, _⟩
        · have := h.nonneg _ _ _ hr
          simp only [zero_smul] at hW
          linarith
        · omega
    | succ i ih =>
      intro t z hs
      cases hs with
      | refl => omega
      | @head t _ b c hr hs =>
        obtain ⟨k', x'⟩ := b
        rcases h.step k x k' x' hr with ⟨rfl, hd⟩ | ⟨h1, h2, _⟩
        · have hW' : W k' x' ≤ i • η k' := by
            rw [succ_nsmul] at hW
            linarith
          have := ih x' hW' t z hs
          omega
        · omega
  | succ j ihj =>
    intro k hk X
    obtain ⟨V, hV⟩ := h.value k X
    obtain ⟨X', hX'⟩ := h.size k V
    obtain ⟨i, hi⟩ := Archimedean.arch V (h.pos k)
    obtain ⟨B, hB⟩ := common (p := fun k' B => k < k' → ∀ x, sz x ≤ X' → ∀ t z, Steps R t (k', x) z → t ≤ B)
      (m := kmax) (fun k' a b hab hp hk x hx t z hs => (hp hk x hx t z hs).trans hab) (by
        intro k' hk'
        by_cases h1 : k < k'
        · obtain ⟨B, hB⟩ := ihj k' (by omega) X'
          exact ⟨B, fun _ => hB⟩
        · exact ⟨0, fun h2 => absurd h2 h1⟩)
    refine ⟨i + 1 + B, fun x hx => ?_⟩
    have hW0 := hV x hx
    have hW := hW0.trans hi
    clear hi hV hx
    induction i generalizing x with
    | zero =>
      intro t z hs
      cases hs with
      | refl => omega
      | @head t _ b c hr hs =>
        obtain ⟨k', x'⟩ := b
        have := h.pos k
        rcases h.step k x k' x' hr with ⟨rfl, hd⟩ | ⟨h1, h2, h3⟩
        · exfalso
          have := h.nonneg _ _ _ hr
          simp only [zero_smul] at hW
          linarith
        · have := hB k' h2 h1 x' (hX' _ _ _ hr (h3.trans hW0)) t z hs
          omega
    | succ i ih =>
      intro t z hs
      cases hs with
      | refl => omega
      | @head t _ b c hr hs =>
        obtain ⟨k', x'⟩ := b
        have hp := h.pos k
        rcases h.step k x k' x' hr with ⟨rfl, hd⟩ | ⟨h1, h2, h3⟩
        · have hW' : W k' x' ≤ i • η k' := by
            rw [succ_nsmul] at hW
            linarith
          have := ih x' (by linarith) hW' t z hs
          omega
        · have := hB k' h2 h1 x' (hX' _ _ _ hr (h3.trans hW0)) t z hs
          omega

end

end LCQ
