import Verif.Props.Circle
import Verif.Props.Examples
import Mathlib.Analysis.SpecialFunctions.Trigonometric.Basic
import Mathlib.Analysis.SpecialFunctions.Complex.Arg
import Mathlib.RingTheory.RootsOfUnity.Complex
import Mathlib.Algebra.Order.Round
import Mathlib.Analysis.SpecialFunctions.Trigonometric.Bounds
import Mathlib.Analysis.Real.Pi.Bounds

/-!
# C75: the polygon around the unit circle
-/

namespace LCQ.Circle
open Scalar Ext Real

/-- the directions of the program, /repo/examples/OptimizeOnCircle.cpp:78-79, computed without rounding -/
noncomputable def unit (N i : Nat) : ℝ × ℝ := (cos (2 * π * i / N), sin (2 * π * i / N))

theorem unit_sum {N : Nat} (hN : 2 ≤ N) (a b : ℝ) : ∑ j : Fin N, along (unit N) j a b = 0 := by
  have h := (Complex.isPrimitiveRoot_exp N (by omega)).geom_sum_eq_zero (by omega)
  have hp : ∀ j : Nat, Complex.exp (2 * π * Complex.I / N) ^ j = (cos (2 * π * j / N) : ℂ) + sin (2 * π * j / N) * Complex.I := by
    intro j
    rw [← Complex.exp_nat_mul, show (j : ℂ) * (2 * π * Complex.I / N) = ((2 * π * j / N : ℝ) : ℂ) * Complex.I by push_cast; ring,
      Complex.exp_mul_I, ← Complex.ofReal_cos, ← Complex.ofReal_sin]
  simp only [hp] at h
  have hre : ∑ j ∈ Finset.range N, cos (2 * π * j / N) = 0 := by
    have := congrArg Complex.re h
    simpa only [Complex.re_sum, Complex.add_re, Complex.ofReal_re, Complex.re_ofReal_mul, Complex.I_re, mul_zero, add_zero,
      Complex.zero_re] using this
  have him : ∑ j ∈ Finset.range N, sin (2 * π * j / N) = 0 := by
    have := congrArg Complex.im h
    simpa only [Complex.im_sum, Complex.add_im, Complex.ofReal_im, Complex.im_ofReal_mul, Complex.I_im, mul_one, zero_add,
      Complex.zero_im] using this
  simp only [along, unit]
  rw [Fin.sum_univ_eq_sum_range (fun j => cos (2 * π * j / N) * a + sin (2 * π * j / N) * b) N, Finset.sum_add_distrib,
    ← Finset.sum_mul, ← Finset.sum_mul, hre, him]
  ring

theorem unit_le (N i : Nat) (a b : ℝ) : along (unit N) i a b ≤ √(a ^ 2 + b ^ 2) := by
  apply Real.le_sqrt_of_sq_le
  simp only [along, unit]
  nlinarith [sin_sq_add_cos_sq (2 * π * i / N), sq_nonneg (cos (2 * π * i / N) * b - sin (2 * π * i / N) * a)]

theorem unit_near {N : Nat} (hN : 1 ≤ N) (a b : ℝ) : ∃ i : Fin N, √(a ^ 2 + b ^ 2) * cos (π / N) ≤ along (unit N) i a b := by
  have n0 : (0 : ℝ) < N := by exact_mod_cast hN
  set z : ℂ := ⟨a, b⟩ with hz
  have hr : ‖z‖ = √(a ^ 2 + b ^ 2) := by
    rw [Complex.norm_def, Complex.normSq_apply]
    congr 1
    simp [hz]
    ring
  have ha : a = ‖z‖ * cos z.arg := by rw [Complex.norm_mul_cos_arg]
  have hb : b = ‖z‖ * sin z.arg := by rw [Complex.norm_mul_sin_arg]
  set φ := z.arg
  let k : ℤ := round (φ * N / (2 * π))
  have hk : |φ * N / (2 * π) - k| ≤ 1 / 2 := abs_sub_round _
  have hN0 : (N : ℤ) ≠ 0 := by omega
  have hm0 := Int.emod_nonneg k hN0
  have hm1 := Int.emod_lt_of_pos k (show (0 : ℤ) < N by omega)
  refine ⟨⟨(k % N).toNat, by omega⟩, ?_⟩
  have hcast : (((k % N).toNat : Nat) : ℝ) = k - N * ((k / N : ℤ) : ℝ) := by
    have h1 : (((k % N).toNat : Nat) : ℤ) = k % N := Int.toNat_of_nonneg hm0
    have h2 : k % N = k - N * (k / N) := by have := Int.emod_add_mul_ediv k N; omega
    have h3 : (((k % N).toNat : Nat) : ℝ) = (((((k % N).toNat : Nat) : ℤ)) : ℝ) := by push_cast; rfl
    rw [h3, h1, h2]
    push_cast
    rfl
  have hdist : along (unit N) ((k % N).toNat) a b = ‖z‖ * cos (φ - 2 * π * k / N) := by
    have e1 : 2 * π * (((k % N).toNat : Nat) : ℝ) / N = 2 * π * k / N - ((k / N : ℤ) : ℝ) * (2 * π) := by
      rw [hcast]
      field_simp
    simp only [along, unit, e1, cos_sub_int_mul_two_pi, sin_sub_int_mul_two_pi]
    rw [cos_sub]
    generalize ‖z‖ = r at ha hb
    rw [ha, hb]
    ring
  rw [hdist, hr]
  refine mul_le_mul_of_nonneg_left ?_ (Real.sqrt_nonneg _)
  have hd : |φ - 2 * π * k / N| ≤ π / N := by
    have e2 : φ - 2 * π * k / N = (φ * N / (2 * π) - k) * (2 * π / N) := by
      field_simp
    rw [e2, abs_mul, abs_of_pos (show 0 < 2 * π / N by positivity)]
    calc |φ * N / (2 * π) - k| * (2 * π / N) ≤ 1 / 2 * (2 * π / N) := mul_le_mul_of_nonneg_right hk (by positivity)
      _ = π / N := by ring
  rw [← cos_abs (φ - 2 * π * k / N)]
  refine cos_le_cos_of_nonneg_of_le_pi (abs_nonneg _) ?_ hd
  exact (div_le_self pi_pos.le (by exact_mod_cast hN))

variable {N : Nat} {e : Env (Ext ℝ)}

/-- C75: with the directions computed without rounding, at least three of them, the first two entries of `xOpt` lie within
`s = t + k * EPS` in each coordinate of a point `p` of the regular polygon around the unit circle, and
`1 - δ < |p| ≤ 1 / cos (π/N)` where `δ = 1000 * EPS + (N + 1) * s + N * s²`. -/
theorem C75_circle {t : ℝ} (hN : 3 ≤ N) (he : FinAns e)
    (hF : NearOn e (dims N) (IsSub (prob N (unit N)) (lowA N) (uppA N) (fun _ => ninf) (fun _ => pinf)) t) {qd sd fuel : Nat}
    {xo yo : Option (List (Ext ℝ))} {st : Stats (Ext ℝ)} (h : main e N (stored (unit N)) qd sd fuel = .ok (some ⟨0, some (xo, yo, st)⟩)) :
    ∃ (k : Nat) (x : Fin (dims N).nV → ℝ) (a b s : ℝ), st.iterTotal = k + 1 ∧ k ≤ 1000 ∧ xo = some (ev x) ∧ s = t + k * epsK ∧
      |px x - a| ≤ s ∧ |py x - b| ≤ s ∧ (∀ i : Fin N, along (unit N) i a b ≤ 1) ∧
      1 - (1000 * epsK + (N + 1) * s + N * s ^ 2) < √(a ^ 2 + b ^ 2) ∧ √(a ^ 2 + b ^ 2) ≤ 1 / cos (π / N) := by
  obtain ⟨k, x, v, y, z, h1, h2, hx, _, hv, hxv, hphi, _⟩ := C75_result (by omega) he hF h
  obtain ⟨g1, g2, g3, i, hi⟩ := C75_boundary hv hxv hphi
  refine ⟨k, x, px v, py v, _, h1, h2, hx, rfl, g1, g2, g3, ?_, ?_⟩
  · rw [Finset.sum_sub_distrib, unit_sum (by omega)] at hi
    simp only [Finset.sum_const, Finset.card_univ, Fintype.card_fin, nsmul_eq_mul, mul_one, sub_zero] at hi
    have := unit_le N i (px v) (py v)
    linarith
  · obtain ⟨j, hj⟩ := unit_near (show 1 ≤ N by omega) (px v) (py v)
    have n3 : (3 : ℝ) ≤ N := by exact_mod_cast hN
    have hc : 0 < cos (π / N) := by
      apply cos_pos_of_mem_Ioo
      constructor
      · have : 0 ≤ π / N := by positivity
        linarith [pi_pos]
      · rw [div_lt_div_iff₀ (by linarith) (by norm_num)]
        nlinarith [pi_pos]
    rw [le_div_iff₀ hc]
    exact hj.trans (g3 j)

/-- C75: the 100 directions of the program.  If the points returned by OSQP are within 10⁻⁶ of points satisfying the linear
constraints, then the first two entries of `xOpt` are within 1.1 · 10⁻⁶ of a point with distance between 0.9998 and 1.0005 from the
origin. -/
theorem C75_hundred (he : FinAns e)
    (hF : NearOn e (dims 100) (IsSub (prob 100 (unit 100)) (lowA 100) (uppA 100) (fun _ => ninf) (fun _ => pinf)) (1 / 10 ^ 6))
    {qd sd fuel : Nat} {xo yo : Option (List (Ext ℝ))} {st : Stats (Ext ℝ)}
    (h : main e 100 (stored (unit 100)) qd sd fuel = .ok (some ⟨0, some (xo, yo, st)⟩)) :
    ∃ (x : Fin (dims 100).nV → ℝ) (a b : ℝ), xo = some (ev x) ∧ |px x - a| ≤ 11 / 10 ^ 7 ∧ |py x - b| ≤ 11 / 10 ^ 7 ∧
      0.9998 < √(a ^ 2 + b ^ 2) ∧ √(a ^ 2 + b ^ 2) ≤ 1.0005 := by
  obtain ⟨k, x, a, b, s, _, hk, hx, hs, h1, h2, _, h3, h4⟩ := C75_circle (by norm_num) he hF h
  have hk' : (k : ℝ) ≤ 1000 := by exact_mod_cast hk
  have k0 : (0 : ℝ) ≤ k := Nat.cast_nonneg k
  have s0 : 0 ≤ s := by rw [hs]; unfold epsK; positivity
  have s1 : s ≤ 11 / 10 ^ 7 := by
    rw [hs]
    unfold epsK
    linarith
  refine ⟨x, a, b, hx, h1.trans s1, h2.trans s1, ?_, h4.trans ?_⟩
  · have : s ^ 2 ≤ (11 / 10 ^ 7) ^ 2 := by gcongr
    unfold epsK at h3
    push_cast at h3
    norm_num at h3 this s1 ⊢
    linarith
  · have hc : (1 : ℝ) - (π / 100) ^ 2 / 2 ≤ cos (π / 100) := one_sub_sq_div_two_le_cos
    have hp := pi_lt_d2
    have hp0 := pi_pos
    push_cast
    rw [div_le_iff₀ (by nlinarith)]
    nlinarith

end LCQ.Circle
