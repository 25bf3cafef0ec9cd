import Verif.Lemmas.WarmUpExact
import Verif.Lemmas.WarmUpMaxMath

/-!
# Helper lemmas for C77: the run of test_max_penalty.cpp
-/

namespace LCQ.WarmUp
open Scalar Ext
open scoped Matrix

variable {K : Type} [Field K] [LinearOrder K] [IsStrictOrderedRing K] {e : Env (Ext K)} {o : Obj (Ext K)} {d : Data (Ext K)}
  {c R : K} {x0 : Fin 2 → K}

theorem prob_stat (c : K) (sp : Bool) (r : K) (b : Bool) {off : Nat} (x : Fin 2 → K) (y : Fin (off + two2.nA) → K)
    (h : yBox (n := two2) y = 0) :
    (prob c).stat sp r b x y 0 = 2 * (x 0 - c) - 2 + r * (x 1 - c) + sig c r b - yLin (n := two2) y (0 : Fin 2) ∧
    (prob c).stat sp r b x y 1 = 2 * (x 1 - c) - 2 + r * (x 0 - c) + sig c r b - yLin (n := two2) y (1 : Fin 2) := by
  have st : ∀ i : Fin 2, (prob c).stat sp r b x y i =
      (tr sp ((prob c).Q + r • (prob c).C) *ᵥ x + (prob c).gT b r) i - yLin (n := two2) y i := by
    intro i
    show (tr sp ((prob c).Q + r • (prob c).C) *ᵥ x + (prob c).gT b r) i - ((prob c).AAᵀ *ᵥ yLin (n := two2) y) i -
      yBox (n := two2) y i = _
    have hA : ((prob c).AAᵀ *ᵥ yLin (n := two2) y) i = yLin (n := two2) y i := congrFun (prob_AAt c (yLin (n := two2) y)) i
    rw [h, hA]
    exact sub_zero _
  obtain ⟨p0, p1⟩ := prob_grad c r sp b x
  exact ⟨by rw [st, p0], by rw [st, p1]⟩

/-- upper bound of the box during the first 1000 passes -/
theorem box_up {k : Nat} (hk : (k : Int) ≤ 1000) (hR : R ≤ 1) (R0 : 0 ≤ R) {t : K} (h : t ≤ 1 + k * (epsK * (1 + R))) : t ≤ 11 / 10 := by
  have hk' : (k : K) ≤ 1000 := by exact_mod_cast hk
  have h1 : epsK * (1 + R) ≤ 2221 / 10 ^ 19 * 2 := mul_le_mul_of_nonneg_left (by linarith) epsK_pos.le
  have h2 : (k : K) * (epsK * (1 + R)) ≤ 1000 * (2221 / 10 ^ 19 * 2) :=
    mul_le_mul hk' h1 (mul_nonneg epsK_pos.le (by linarith)) (by positivity)
  linarith

theorem box_lo {k : Nat} (hk : (k : Int) ≤ 1000) {t : K} (h : -(k * epsK) ≤ t) : -(1 / 10) ≤ t := by
  have hk' : (k : K) ≤ 1000 := by exact_mod_cast hk
  have h2 : (k : K) * epsK ≤ 1000 * (2221 / 10 ^ 19) := mul_le_mul_of_nonneg_right hk' epsK_pos.le
  linarith

/-- Heads of the main loop: `t` passes, `j` penalty updates, `i` passes since the last of them. -/
theorem Good.count (hG : Good e o 0 1 x0) {s0 s : St (Ext K)} (h0 : Enters e o d s0) {t : Nat} (h : Passes e d s0 t s) :
    ∃ (off : Nat) (r : K) (b : Bool) (x p : Fin 2 → K) (a : K) (y : Fin (off + two2.nA) → K) (j i : Nat),
      DataOK d two2 off ∧ DataIs d two2 (prob 0) off ∧ d.opts = o.d.opts ∧ XSt d two2 (prob 0) off s r b x p a y ∧ OutB s b ∧
      yBox (n := two2) y = 0 ∧ (b = false → r = 1 / 100) ∧ yLin (n := two2) y (0 : Fin 2) = 0 ∧ yLin (n := two2) y (1 : Fin 2) = 0 ∧
      (∀ i, -(t * epsK) ≤ (x + a • p) i - 0 ∧ (x + a • p) i - 0 ≤ 1 + t * (epsK * (1 + 1))) ∧
      Live d.opts s t j ∧ r = 1 / 100 * 2 ^ j ∧ j ≤ 6 ∧ i ≤ 36 ∧ t ≤ 37 * j + i ∧
      |(2 + r) * ((x + a • p) 0 + (x + a • p) 1) - 4| ≤ 8 / 2 ^ i ∧ |(2 - r) * ((x + a • p) 0 - (x + a • p) 1)| ≤ 8 / 2 ^ i := by
  induction h with
  | start =>
    obtain ⟨off, r, b, x, p, a, y, h1, h2, h3, h5, h6, h7, hbr, hH⟩ := hG.head h0 .start
    obtain ⟨j, hj, _, _, hl, hj'⟩ := hG.rho h0 .start h5.rho
    obtain ⟨_, _, hr, ha, hv⟩ | ⟨hk, _⟩ := hH.last
    · have hj0 : (2 : K) ^ j = 2 ^ 0 := by
        rw [hr] at hj
        linarith
      have hj0 : j = 0 := pow_right_injective₀ (by norm_num) (by norm_num) hj0
      refine ⟨off, r, b, x, p, a, y, j, 0, h1, h2, h3, h5, h6, h7, hbr, (hv 0).2, (hv 1).2, hH.box, hl, hj, by omega, by omega, by omega, ?_, ?_⟩
      · rw [ha, one_smul, (hv 0).1, (hv 1).1, hr, abs_le]
        norm_num
      · rw [ha, one_smul, (hv 0).1, (hv 1).1, hr, abs_le]
        norm_num
    · exact absurd hk (lt_irrefl _)
  | @pass t s1 s2 hr hp ih =>
    obtain ⟨off, r, b, x, p, a, y, j, i, h1, h2, h3, h5, h6, h7, hbr, y0, y1, hbox, hl, hj, hj6, hi, ht, hS, hD⟩ := ih
    obtain ⟨r', b', x', p', a', y', hgr, k2, k3, k4, k5, k6, k7, k8, v, δ, hδ, rfl, rfl, hs, hw, hal⟩ := hG.next h0 hr hp h1 h2 h3 h5 h6 hbr hbox
    obtain ⟨j', hj', hR', hk', hl', _⟩ := hG.rho h0 (hr.pass hp) k2.rho
    have hR' : r' ≤ 1 := hR'.resolve_left (by omega)
    have hj6' : j' ≤ 6 := by
      by_contra hn
      have : (2 : K) ^ 7 ≤ 2 ^ j' := pow_le_pow_right₀ (by norm_num) (by omega)
      rw [hj'] at hR'
      norm_num at this
      linarith
    have hr64 : r' ≤ 64 / 100 := by
      have : (2 : K) ^ j' ≤ 2 ^ 6 := pow_le_pow_right₀ (by norm_num) hj6'
      rw [hj']
      norm_num at this
      linarith
    have r0 : 0 ≤ r' := by rw [hj']; positivity
    have sg : sig 0 r' b' = 0 := by
      unfold sig
      split
      · rfl
      · simp
    rw [sg] at hs
    have wu : ∀ i, (x + a • p) i - 0 ≤ 11 / 10 := fun i => box_up hk' (le_refl _) zero_le_one (hw i).2
    obtain ⟨n0, n1⟩ := hs.free r0 hr64 (wu 0) (wu 1)
    have zu : ∀ i, (x + a • p + δ + a' • (v - (x + a • p))) i ≤ 11 / 10 := fun i => by
      have := box_up hk' (le_refl _) zero_le_one (k8 i).2
      rwa [sub_zero] at this
    have zl : ∀ i, -(1 / 10) ≤ (x + a • p + δ + a' • (v - (x + a • p))) i := fun i => by
      have := box_lo hk' (k8 i).1
      rwa [sub_zero] at this
    suffices hf : ∃ i' : Nat, i' ≤ 36 ∧ t + 1 ≤ 37 * j' + i' ∧ |(2 + r') * ((x + a • p + δ + a' • (v - (x + a • p))) 0 + (x + a • p + δ + a' • (v - (x + a • p))) 1) - 4| ≤ 8 / 2 ^ i' ∧
        |(2 - r') * ((x + a • p + δ + a' • (v - (x + a • p))) 0 - (x + a • p + δ + a' • (v - (x + a • p))) 1)| ≤ 8 / 2 ^ i' by
      obtain ⟨i', q1, q2, q3, q4⟩ := hf
      exact ⟨off, r', b', x + a • p + δ, v - (x + a • p), a', y', j', i', h1, h2, h3, k2, k3, k4, k5, n0, n1, k8, hl', hj', hj6', q1, q2, q3, q4⟩
    rcases hgr with ⟨rfl, rfl⟩ | ⟨m, hm, hm', _⟩
    · have hjj : j' = j := by
        have : (2 : K) ^ j' = 2 ^ j := by linarith
        exact pow_right_injective₀ (by norm_num) (by norm_num) this
      subst hjj
      rcases pass_residual h2 h5 (by rw [h3]; exact hG.statTol) hl hp with ⟨i0, hi0⟩ | ⟨k', hk'', hl''⟩
      · obtain ⟨t0, t1⟩ := prob_stat 0 d.sparse r' b' (x + a • p) y h7
        rw [sg, y0, sub_zero, sub_zero, sub_zero, add_zero] at t0
        rw [sg, y1, sub_zero, sub_zero, sub_zero, add_zero] at t1
        have hg : 2221 / 10 ^ 13 ≤ |2 * (x + a • p) 0 - 2 + r' * (x + a • p) 1| ∨ 2221 / 10 ^ 13 ≤ |2 * (x + a • p) 1 - 2 + r' * (x + a • p) 0| := by
          change Fin 2 at i0
          fin_cases i0
          · left
            rw [← t0]
            exact hi0
          · right
            rw [← t1]
            exact hi0
        simp only [sub_zero, sg, add_zero] at hs hal hw
        rw [n0, n1] at hs
        have hi35 : i ≤ 35 := by
          by_contra hn
          have h36 : i = 36 := by omega
          subst h36
          generalize (x + a • p) 0 = z0 at *
          generalize (x + a • p) 1 = z1 at *
          rw [abs_le] at hS hD
          rcases hg with hg | hg <;> rcases le_abs.mp hg with hg | hg <;> linarith
        have hh := halve (a := a') (D0 := δ 0) (D1 := δ 1) hs r0 hr64 (hδ 0) (hδ 1) hal k7 hg hS hD
        refine ⟨i + 1, by omega, by omega, ?_, ?_⟩
        · rw [pow_succ, ← div_div]
          exact hh.1
        · rw [pow_succ, ← div_div]
          exact hh.2
      · have := hl'.outer.symm.trans hl''.outer
        injection this with this
        omega
    · have hjj : j' = j + m := by
        have : (2 : K) ^ j' = 2 ^ (j + m) := by
          rw [pow_add]
          rw [hj, hj'] at hm'
          linarith
        exact pow_right_injective₀ (by norm_num) (by norm_num) this
      refine ⟨0, by omega, by omega, ?_, ?_⟩
      · have u0 := zu 0
        have u1 := zu 1
        have l0 := zl 0
        have l1 := zl 1
        generalize (x + a • p + δ + a' • (v - (x + a • p))) 0 = z0 at *
        generalize (x + a • p + δ + a' • (v - (x + a • p))) 1 = z1 at *
        rw [abs_le]
        constructor <;> nlinarith
      · have u0 := zu 0
        have u1 := zu 1
        have l0 := zl 0
        have l1 := zl 1
        generalize (x + a • p + δ + a' • (v - (x + a • p))) 0 = z0 at *
        generalize (x + a • p + δ + a' • (v - (x + a • p))) 1 = z1 at *
        rw [abs_le]
        constructor <;> nlinarith

/-- the run never passes the tests of the solver -/
theorem Good.far (hG : Good e o 0 1 x0) {s0 s : St (Ext K)} (h0 : Enters e o d s0) {k : Nat} (h : Passes e d s0 k s)
    {q : RV × St (Ext K)} (hp : pass e d s = .ok (.inr q)) : q.1 ≠ .successfulReturn := by
  intro hq
  obtain ⟨off, r, b, x, p, a, y, j, i, h1, h2, h3, h5, h6, h7, _, y0, y1, hbox, _, hj, hj6, _⟩ := hG.count h0 h
  obtain ⟨_, _, _, hk, _⟩ := hG.rho h0 h h5.rho
  obtain ⟨g1, g2, _⟩ := pass_success h2 h5 h6 (by rw [h3]; exact hG.statTol) (by rw [h3]; exact hG.complTol) hp hq
  rw [prob_phi, sub_zero, sub_zero] at g1
  obtain ⟨t0, t1⟩ := prob_stat 0 d.sparse r b (x + a • p) y h7
  have sg : sig 0 r b = 0 := by
    unfold sig
    split
    · rfl
    · simp
  rw [sg, y0, sub_zero, sub_zero, sub_zero, add_zero] at t0
  rw [sg, y1, sub_zero, sub_zero, sub_zero, add_zero] at t1
  have e0 := g2 0
  have e1 := g2 1
  rw [t0, abs_lt] at e0
  rw [t1, abs_lt] at e1
  have r0 : 0 ≤ r := by rw [hj]; positivity
  have hr64 : r ≤ 64 / 100 := by
    have : (2 : K) ^ j ≤ 2 ^ 6 := pow_le_pow_right₀ (by norm_num) hj6
    rw [hj]
    norm_num at this
    linarith
  have zu : ∀ i, (x + a • p) i ≤ 11 / 10 := fun i => by
    have := box_up hk (le_refl _) zero_le_one (hbox i).2
    rwa [sub_zero] at this
  have u0 := zu 0
  have u1 := zu 1
  generalize (x + a • p) 0 = z0 at *
  generalize (x + a • p) 1 = z1 at *
  have m0 : r * z0 ≤ 64 / 100 * (11 / 10) := by nlinarith
  have m1 : r * z1 ≤ 64 / 100 * (11 / 10) := by nlinarith
  have l0 : 1 / 2 ≤ z0 := by linarith
  have l1 : 1 / 2 ≤ z1 := by linarith
  nlinarith

end LCQ.WarmUp
