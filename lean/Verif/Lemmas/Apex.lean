import Verif.Spec.Apex
import Verif.Lemmas.EnoughMath

/-!
# Decrease of the complementarity function
-/

set_option linter.unusedSectionVars false

namespace LCQ.Ref
open scoped Matrix

variable {K : Type} [Field K] [LinearOrder K] [IsStrictOrderedRing K] {m : Nat} {A : Pb K m} {o : Par K} {c0 : K} {y : Fin m → K}

theorem bil_symm {B : Matrix (Fin m) (Fin m) K} (hB : Bᵀ = B) (v w : Fin m → K) : v ⬝ᵥ (B *ᵥ w) = w ⬝ᵥ (B *ᵥ v) := by
  rw [Matrix.dotProduct_mulVec, ← Matrix.mulVec_transpose, hB, dotProduct_comm]

/-- a quadratic form along a line -/
theorem bil_line {B : Matrix (Fin m) (Fin m) K} (hB : Bᵀ = B) (x p : Fin m → K) (b : K) :
    (x + b • p) ⬝ᵥ (B *ᵥ (x + b • p)) = x ⬝ᵥ (B *ᵥ x) + 2 * b * (p ⬝ᵥ (B *ᵥ x)) + b * b * (p ⬝ᵥ (B *ᵥ p)) := by
  simp only [Matrix.mulVec_add, Matrix.mulVec_smul, add_dotProduct, dotProduct_add, smul_dotProduct, dotProduct_smul, smul_eq_mul]
  rw [bil_symm hB x p]
  ring

/-- the exact line search -/
theorem search {q l : K} (h0 : l < 0) {b : K} (hb0 : 0 ≤ b) (hb1 : b ≤ 1) :
    len q l * l + len q l * len q l * q / 2 ≤ b * l + b * b * q / 2 ∧ 0 ≤ len q l ∧ len q l ≤ 1 := by
  unfold len
  by_cases hq : 0 < q
  · rw [if_pos ⟨hq, h0⟩]
    have hd : -l / q * q = -l := div_mul_cancel₀ _ hq.ne'
    have hpos : 0 ≤ -l / q := div_nonneg (by linarith) hq.le
    rcases le_total (-l / q) 1 with hc | hc
    · rw [min_eq_left hc]
      refine ⟨?_, hpos, hc⟩
      generalize -l / q = a at *
      have : l = -(a * q) := by linarith
      rw [this]
      nlinarith [mul_nonneg hq.le (mul_self_nonneg (a - b))]
    · rw [min_eq_right hc]
      refine ⟨?_, zero_le_one, le_refl _⟩
      have h2 : q ≤ -l := by
        have := mul_le_mul_of_nonneg_right hc hq.le
        rw [hd, one_mul] at this
        exact this
      have h3 : 0 ≤ (1 - b) * (-l - q) := mul_nonneg (by linarith) (by linarith)
      have h4 : 0 ≤ (1 - b) * (1 - b) * q := mul_nonneg (mul_self_nonneg _) hq.le
      nlinarith
  · rw [if_neg (fun hc => hq hc.1)]
    refine ⟨?_, zero_le_one, le_refl _⟩
    have h3 : 0 ≤ (1 - b) * (-l) := mul_nonneg (by linarith) (by linarith)
    have h4 : 0 ≤ (1 - b * b) * (-q) := mul_nonneg (by nlinarith) (by linarith)
    nlinarith

/-- the step to the solution of a subproblem is a direction of descent -/
theorem slope (hs : A.Qᵀ = A.Q) (hpd : ∀ v, v ≠ 0 → 0 < v ⬝ᵥ (A.Q *ᵥ v)) {b x v : Fin m → K} (hx : A.X x) (hv : IsMin A b v)
    (hne : v ≠ x) : (v - x) ⬝ᵥ (A.Q *ᵥ x + b) < 0 := by
  have hp : 0 < (v - x) ⬝ᵥ (A.Q *ᵥ (v - x)) := hpd _ (sub_ne_zero.mpr hne)
  have h1 := hv.2 x hx
  have e : v ⬝ᵥ (A.Q *ᵥ v) = x ⬝ᵥ (A.Q *ᵥ x) + 2 * ((v - x) ⬝ᵥ (A.Q *ᵥ x)) + (v - x) ⬝ᵥ (A.Q *ᵥ (v - x)) := by
    have : v = x + (1 : K) • (v - x) := by rw [one_smul]; abel
    conv_lhs => rw [this]
    rw [bil_line hs]
    ring
  have e2 : (v - x) ⬝ᵥ (A.Q *ᵥ x + b) = (v - x) ⬝ᵥ (A.Q *ᵥ x) + (b ⬝ᵥ v - b ⬝ᵥ x) := by
    rw [dotProduct_add, ← dotProduct_sub, dotProduct_comm (v - x) b]
  rw [e2]
  rw [e] at h1
  linarith

/-- the penalised objective along a line; `b` is its linear term -/
theorem pen_line (hs : A.Qᵀ = A.Q) (hc : A.Cᵀ = A.C) (r : K) (b x p : Fin m → K) (c : K) :
    (x + c • p) ⬝ᵥ (A.Q *ᵥ (x + c • p)) / 2 + r * ((x + c • p) ⬝ᵥ (A.C *ᵥ (x + c • p)) / 2) + b ⬝ᵥ (x + c • p) =
      x ⬝ᵥ (A.Q *ᵥ x) / 2 + r * (x ⬝ᵥ (A.C *ᵥ x) / 2) + b ⬝ᵥ x +
      (c * (p ⬝ᵥ ((A.Q + r • A.C) *ᵥ x + b)) + c * c * (p ⬝ᵥ ((A.Q + r • A.C) *ᵥ p)) / 2) := by
  rw [bil_line hs, bil_line hc]
  simp only [Matrix.add_mulVec, Matrix.smul_mulVec, dotProduct_add, dotProduct_smul, smul_eq_mul]
  rw [dotProduct_comm p b]
  ring

/-- the line search compared with any other step length -/
theorem pen_search (hs : A.Qᵀ = A.Q) (hc : A.Cᵀ = A.C) (hpd : ∀ v, v ≠ 0 → 0 < v ⬝ᵥ (A.Q *ᵥ v)) {r : K} {b x v : Fin m → K}
    (hx : A.X x) (hv : IsMin A (r • (A.C *ᵥ x) + b) v) (hne : v ≠ x) {a : K}
    (ha : a = len ((v - x) ⬝ᵥ ((A.Q + r • A.C) *ᵥ (v - x))) ((v - x) ⬝ᵥ ((A.Q + r • A.C) *ᵥ x + b))) {c : K} (h0 : 0 ≤ c) (h1 : c ≤ 1) :
    0 ≤ a ∧ a ≤ 1 ∧
    (x + a • (v - x)) ⬝ᵥ (A.Q *ᵥ (x + a • (v - x))) / 2 + r * ((x + a • (v - x)) ⬝ᵥ (A.C *ᵥ (x + a • (v - x))) / 2) + b ⬝ᵥ (x + a • (v - x)) ≤
    (x + c • (v - x)) ⬝ᵥ (A.Q *ᵥ (x + c • (v - x))) / 2 + r * ((x + c • (v - x)) ⬝ᵥ (A.C *ᵥ (x + c • (v - x))) / 2) + b ⬝ᵥ (x + c • (v - x)) := by
  have hl := slope hs hpd hx hv hne
  have e : A.Q *ᵥ x + (r • (A.C *ᵥ x) + b) = (A.Q + r • A.C) *ᵥ x + b := by
    rw [Matrix.add_mulVec, Matrix.smul_mulVec, add_assoc]
  rw [e] at hl
  obtain ⟨s1, s2, s3⟩ := search (q := (v - x) ⬝ᵥ ((A.Q + r • A.C) *ᵥ (v - x))) hl h0 h1
  rw [← ha] at s1 s2 s3
  refine ⟨s2, s3, ?_⟩
  rw [pen_line hs hc, pen_line hs hc]
  linarith

namespace Apex
variable (h : Apex A c0 y)
include h

theorem phi_mix (x : Fin m → K) : A.mix c0 x x = 2 * A.phi x := by
  rw [h.phi, Pb.mix]
  ring

theorem phi_nonneg {x : Fin m → K} (hx : A.X x) : 0 ≤ A.phi x := by
  have := h.mixed x x hx hx
  rw [h.phi_mix] at this
  linarith

/-- the objective is convex -/
theorem obj_line (hpsd : ∀ v, 0 ≤ v ⬝ᵥ (A.Q *ᵥ v)) (x v : Fin m → K) {b : K} (h0 : 0 ≤ b) (h1 : b ≤ 1) :
    A.obj (x + b • (v - x)) ≤ (1 - b) * A.obj x + b * A.obj v := by
  have e1 : A.obj (x + b • (v - x)) = A.obj x + b * ((v - x) ⬝ᵥ (A.Q *ᵥ x) + A.g ⬝ᵥ (v - x)) +
      b * b * ((v - x) ⬝ᵥ (A.Q *ᵥ (v - x))) / 2 := by
    simp only [Pb.obj]
    rw [bil_line h.symm, dotProduct_add, dotProduct_smul, smul_eq_mul]
    ring
  have e2 : A.obj v = A.obj x + ((v - x) ⬝ᵥ (A.Q *ᵥ x) + A.g ⬝ᵥ (v - x)) + ((v - x) ⬝ᵥ (A.Q *ᵥ (v - x))) / 2 := by
    have : v = x + (1 : K) • (v - x) := by rw [one_smul]; abel
    conv_lhs => rw [this]
    simp only [Pb.obj]
    rw [bil_line h.symm, dotProduct_add, dotProduct_smul, smul_eq_mul]
    ring
  have hp := hpsd (v - x)
  rw [e1, e2]
  have : 0 ≤ b * (1 - b) * ((v - x) ⬝ᵥ (A.Q *ᵥ (v - x))) := mul_nonneg (mul_nonneg h0 (by linarith)) hp
  nlinarith

/-- the complementarity function on a segment -/
theorem phi_line (x v : Fin m → K) (b : K) : A.phi (x + b • (v - x)) =
    (1 - b) * (1 - b) * A.phi x + b * (1 - b) * A.mix c0 x v + b * b * A.phi v := by
  rw [h.phi, h.phi, h.phi, bil_line h.csymm, Pb.mix]
  simp only [Matrix.mulVec_sub, sub_dotProduct, dotProduct_sub, dotProduct_add, dotProduct_smul, smul_eq_mul]
  rw [bil_symm h.csymm v x]
  ring

/-- the solution of a subproblem has no larger objective than the apex, and its mixed product is small -/
theorem sub_min {r : K} {x v : Fin m → K} (hx : A.X x) (hv : IsMin A (r • (A.C *ᵥ x) + (A.g + r • A.h)) v) :
    A.obj v + r * A.mix c0 x v ≤ A.obj y := by
  have h1 := hv.2 y h.mem
  have h2 := h.apex x hx
  simp only [add_dotProduct, smul_dotProduct, smul_eq_mul] at h1
  rw [dotProduct_comm (A.C *ᵥ x) v, dotProduct_comm (A.C *ᵥ x) y, bil_symm h.csymm v x, bil_symm h.csymm y x] at h1
  simp only [Pb.obj, Pb.mix] at h2 ⊢
  have h3 : r * (x ⬝ᵥ (A.C *ᵥ y)) = -(r * (A.h ⬝ᵥ x)) - r * (A.h ⬝ᵥ y) - r * (2 * c0) := by
    have : x ⬝ᵥ (A.C *ᵥ y) = -(A.h ⬝ᵥ x) - A.h ⬝ᵥ y - 2 * c0 := by linarith
    rw [this]; ring
  rw [h3] at h1
  linarith

/-- one step after the first penalty update: the new point is feasible, has a bounded objective, and the complementarity
function decreases up to a quantity that is inversely proportional to the penalty parameter -/
theorem decrease (hpd : ∀ v, v ≠ 0 → 0 < v ⬝ᵥ (A.Q *ᵥ v)) {r M D F : K} (hr : 0 < r) (hM : A.obj y ≤ M)
    (hD : ∀ x z, A.X x → A.X z → A.obj x ≤ M → A.obj z ≤ M → A.obj x - A.obj z ≤ D)
    (hF : ∀ x, A.X x → A.obj x ≤ M → A.phi x ≤ F) (hF0 : 0 < F) {x v : Fin m → K} (hx : A.X x) (hxM : A.obj x ≤ M)
    (hv : IsMin A (r • (A.C *ᵥ x) + (A.g + r • A.h)) v) {a : K}
    (ha : a = len ((v - x) ⬝ᵥ ((A.Q + r • A.C) *ᵥ (v - x))) ((v - x) ⬝ᵥ ((A.Q + r • A.C) *ᵥ x + (A.g + r • A.h)))) :
    A.X (x + a • (v - x)) ∧ A.obj (x + a • (v - x)) ≤ M ∧
    A.phi (x + a • (v - x)) ≤ A.phi x - A.phi x * A.phi x / (2 * F) + 2 * D / r := by
  have hpsd : ∀ v, 0 ≤ v ⬝ᵥ (A.Q *ᵥ v) := by
    intro v
    by_cases hv : v = 0
    · rw [hv]; simp
    · exact (hpd v hv).le
  have hvM : A.obj v ≤ M ∧ r * A.mix c0 x v ≤ D := by
    have h1 := h.sub_min hx hv
    have h2 := mul_nonneg hr.le (h.mixed x v hx hv.1)
    have h3 : A.obj v ≤ M := by linarith
    exact ⟨h3, by linarith [hD y v h.mem hv.1 hM h3]⟩
  obtain ⟨hvM, hs⟩ := hvM
  have hs' : A.mix c0 x v ≤ D / r := by rw [le_div_iff₀ hr]; linarith
  have hsn := h.mixed x v hx hv.1
  have hD0 : 0 ≤ D := by linarith [hD x x hx hx hxM hxM]
  have hDr : 0 ≤ D / r := div_nonneg hD0 hr.le
  have hpx := h.phi_nonneg hx
  have hpF := hF x hx hxM
  have hvF := hF v hv.1 hvM
  have on : ∀ {b : K}, 0 ≤ b → b ≤ 1 → A.X (x + b • (v - x)) ∧ A.obj (x + b • (v - x)) ≤ M := by
    intro b h0 h1
    refine ⟨h.conv x v b hx hv.1 h0 h1, (h.obj_line hpsd x v h0 h1).trans ?_⟩
    nlinarith [mul_le_mul_of_nonneg_left hxM (sub_nonneg.mpr h1), mul_le_mul_of_nonneg_left hvM h0]
  -- the comparison step
  set b := A.phi x / (2 * F) with hb
  have hb0 : 0 ≤ b := div_nonneg hpx (by linarith)
  have hbF : b * (2 * F) = A.phi x := div_mul_cancel₀ _ (by linarith)
  have hb1 : b ≤ 1 := by
    rw [hb, div_le_one (by linarith)]
    linarith
  have cmp : A.phi (x + b • (v - x)) ≤ A.phi x - A.phi x * A.phi x / (2 * F) + D / r := by
    rw [h.phi_line]
    have e1 : A.phi x * A.phi x / (2 * F) = b * A.phi x := by rw [hb]; ring
    have h1 : b * (1 - b) * A.mix c0 x v ≤ D / r := by
      have h2 : b * (1 - b) ≤ 1 := by nlinarith
      calc b * (1 - b) * A.mix c0 x v ≤ 1 * A.mix c0 x v := mul_le_mul_of_nonneg_right h2 hsn
        _ ≤ D / r := by linarith
    have h4 : b * b * A.phi v ≤ b * b * F := mul_le_mul_of_nonneg_left hvF (mul_self_nonneg b)
    have h5 : b * b * A.phi x ≤ b * b * F := mul_le_mul_of_nonneg_left hpF (mul_self_nonneg b)
    have h6 : b * b * F * 2 = b * A.phi x := by rw [← hbF]; ring
    rw [e1]
    nlinarith
  have h3 : 2 * D / r = D / r + D / r := by ring
  by_cases hne : v = x
  · -- no step: then the mixed product is twice the complementarity function
    subst hne
    have e0 : v + a • (v - v) = v := by simp
    rw [e0]
    refine ⟨hx, hxM, ?_⟩
    have h1 := h.phi_mix v
    have h2 : A.phi v * A.phi v / (2 * F) ≤ A.phi v := by
      have : A.phi v * A.phi v / (2 * F) = b * A.phi v := by rw [hb]; ring
      rw [this]
      nlinarith
    rw [h3]
    linarith
  · obtain ⟨s2, s3, s1⟩ := pen_search h.symm h.csymm hpd hx hv hne ha hb0 hb1
    obtain ⟨k1, k2⟩ := on s2 s3
    obtain ⟨k3, k4⟩ := on hb0 hb1
    refine ⟨k1, k2, ?_⟩
    have merit : ∀ z, A.obj z + r * A.phi z = z ⬝ᵥ (A.Q *ᵥ z) / 2 + r * (z ⬝ᵥ (A.C *ᵥ z) / 2) + (A.g + r • A.h) ⬝ᵥ z + r * c0 := by
      intro z
      rw [h.phi, Pb.obj, add_dotProduct, smul_dotProduct, smul_eq_mul]
      ring
    have m1 := merit (x + a • (v - x))
    have m2 := merit (x + b • (v - x))
    have hd := hD _ _ k3 k1 k4 k2
    have h1 : r * A.phi (x + a • (v - x)) ≤ D + r * A.phi (x + b • (v - x)) := by linarith
    have h2 : A.phi (x + a • (v - x)) ≤ D / r + A.phi (x + b • (v - x)) := by
      have : r * A.phi (x + a • (v - x)) ≤ r * (D / r + A.phi (x + b • (v - x))) := by
        rw [mul_add, mul_div_cancel₀ _ hr.ne']
        exact h1
      exact le_of_mul_le_mul_left this hr
    rw [h3]
    linarith

/-- one step before the first penalty update: the new point is feasible and the penalised objective without linear term of the
complementarity function does not increase -/
theorem early (hpd : ∀ v, v ≠ 0 → 0 < v ⬝ᵥ (A.Q *ᵥ v)) {r : K} {x v : Fin m → K} (hx : A.X x)
    (hv : IsMin A (r • (A.C *ᵥ x) + A.g) v) {a : K}
    (ha : a = len ((v - x) ⬝ᵥ ((A.Q + r • A.C) *ᵥ (v - x))) ((v - x) ⬝ᵥ ((A.Q + r • A.C) *ᵥ x + A.g))) :
    A.X (x + a • (v - x)) ∧
    A.obj (x + a • (v - x)) + r * ((x + a • (v - x)) ⬝ᵥ (A.C *ᵥ (x + a • (v - x))) / 2) ≤ A.obj x + r * (x ⬝ᵥ (A.C *ᵥ x) / 2) := by
  by_cases hne : v = x
  · subst hne
    have e0 : v + a • (v - v) = v := by simp
    rw [e0]
    exact ⟨hx, le_refl _⟩
  · obtain ⟨s2, s3, s1⟩ := pen_search h.symm h.csymm hpd hx hv hne ha (le_refl (0 : K)) zero_le_one
    refine ⟨h.conv x v a hx hv.1 s2 s3, ?_⟩
    rw [zero_smul, add_zero] at s1
    simp only [Pb.obj]
    linarith

end Apex

/-! ## level sets -/

theorem sq_bound {c : K} (hc : 0 < c) (hsc : ∀ v, c * (v ⬝ᵥ v) ≤ v ⬝ᵥ (A.Q *ᵥ v)) {b x : Fin m → K} {M : K}
    (hx : x ⬝ᵥ (A.Q *ᵥ x) / 2 + b ⬝ᵥ x ≤ M) : x ⬝ᵥ x ≤ (M + b ⬝ᵥ b / c) / (c / 4) := by
  have h2 := lin_ge hc b x
  have h3 := hsc x
  rw [le_div_iff₀ (by linarith)]
  linarith

theorem lin_le (b x : Fin m → K) : b ⬝ᵥ x ≤ (b ⬝ᵥ b + x ⬝ᵥ x) / 2 := by
  have h1 := dot_self_nonneg (b - x)
  simp only [sub_dotProduct, dotProduct_sub] at h1
  rw [dotProduct_comm x b] at h1
  linarith

/-- quadratic functions are bounded on bounded sets -/
theorem quad_bound (B : Matrix (Fin m) (Fin m) K) (b : Fin m → K) (Y : K) :
    ∃ U, ∀ x, x ⬝ᵥ x ≤ Y → x ⬝ᵥ (B *ᵥ x) / 2 + b ⬝ᵥ x ≤ U := by
  refine ⟨asum B * Y / 2 + (b ⬝ᵥ b + Y) / 2, fun x hx => ?_⟩
  have h1 := quad_le B x
  have h2 := lin_le b x
  have h3 := mul_le_mul_of_nonneg_left hx (asum_nonneg B)
  linarith

end LCQ.Ref
