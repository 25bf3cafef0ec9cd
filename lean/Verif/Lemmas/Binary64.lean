import Verif.Spec.Binary64
import Mathlib.Tactic.Linarith
import Mathlib.Tactic.Ring
import Mathlib.Tactic.Positivity
import Mathlib.Tactic.FieldSimp
import Mathlib.Tactic.NormNum

/-!
# `double` is an arithmetic with rounding errors
-/

namespace LCQ
namespace Dbl

/-- normal range -/
theorem round_normal {q : ℚ} (hq : q ≠ 0) (h : -1022 ≤ elog q) : |round q - q| ≤ pow2 (-53) * |q| := by
  refine (round_err q hq).trans ?_
  rw [half_place, max_eq_left h]
  exact mul_le_mul_of_nonneg_left (elog_spec hq).1 (pow2_pos _).le

/-- in general -/
theorem round_gen (q : ℚ) : |round q - q| ≤ pow2 (-53) * (|q| + pow2 (-1022)) := by
  by_cases hq : q = 0
  · subst hq
    have h0 : round 0 = 0 := if_pos rfl
    rw [h0, sub_zero, abs_zero, zero_add]
    exact mul_nonneg (pow2_pos _).le (pow2_pos _).le
  · by_cases h : -1022 ≤ elog q
    · refine (round_normal hq h).trans (mul_le_mul_of_nonneg_left ?_ (pow2_pos _).le)
      have := pow2_pos (-1022)
      linarith
    · refine (round_err q hq).trans ?_
      rw [half_place, max_eq_right (by omega)]
      refine mul_le_mul_of_nonneg_left ?_ (pow2_pos _).le
      have := abs_nonneg q
      linarith

/-- `q` is a multiple of the smallest positive number -/
def Grid (q : ℚ) : Prop := ∃ z : Int, q = z * pow2 (-1074)

theorem Rep.grid {q : ℚ} (h : Rep q) : Grid q := by
  obtain ⟨m, k, hm, _, hk⟩ := h
  refine ⟨m * 2 ^ (1074 - k).toNat, ?_⟩
  rw [hm, show -k = (1074 - k) + -1074 by ring, pow2_add, ← mul_assoc]
  congr 1
  push_cast
  congr 1
  rw [pow2, if_pos (by omega)]
  simp

theorem Grid.add {q r : ℚ} (h : Grid q) (h' : Grid r) : Grid (q + r) := by
  obtain ⟨z, hz⟩ := h
  obtain ⟨y, hy⟩ := h'
  exact ⟨z + y, by rw [hz, hy]; push_cast; rw [add_mul]⟩

/-- no underflow on the grid -/
theorem round_on_grid {q : ℚ} (hg : Grid q) : |round q - q| ≤ pow2 (-53) * |q| := by
  by_cases hq : q = 0
  · subst hq; simp [round]
  · by_cases h : -1022 ≤ elog q
    · exact round_normal hq h
    · obtain ⟨z, hz⟩ := hg
      have hp : place q = 1074 := by unfold place; omega
      have h1 : q * pow2 1074 = z := by
        rw [hz, mul_assoc, mul_comm (pow2 (-1074)), pow2_neg, mul_one]
      rw [round, if_neg hq, hp, h1, nearest_int, ← hz, sub_self, abs_zero]
      exact mul_nonneg (pow2_pos _).le (abs_nonneg _)

theorem rep_of_le {m k : Int} (h : |m| ≤ 2 ^ 53) (hk : k ≤ 1074) : Rep (m * pow2 (-k)) := by
  rcases lt_or_eq_of_le h with h | h
  · exact ⟨m, k, rfl, h, hk⟩
  · obtain ⟨s, hs, hs'⟩ : ∃ s : Int, m = s * 2 ∧ |s| = 2 ^ 52 := by
      rcases abs_choice m with h' | h'
      · exact ⟨2 ^ 52, by omega, by norm_num⟩
      · exact ⟨-2 ^ 52, by omega, by norm_num⟩
    refine ⟨s, k - 1, ?_, by rw [hs']; norm_num, by omega⟩
    rw [hs, show -(k - 1) = 1 + -k by ring, pow2_add, pow2_one]
    push_cast; ring

theorem nearest_le (y : ℚ) (z : Int) : |(nearest y : ℚ) - y| ≤ |(z : ℚ) - y| := by
  by_contra hn
  have h := nearest_err y
  have h1 : |(z : ℚ) - y| < 1 / 2 := by linarith [not_le.mp hn]
  have h2 : |(nearest y : ℚ) - z| < 1 := by
    have : (nearest y : ℚ) - z = (nearest y - y) - (z - y) := by ring
    rw [this]
    have := abs_sub ((nearest y : ℚ) - y) (z - y)
    linarith
  have h3 : |nearest y - z| < 1 := by exact_mod_cast h2
  have h4 : nearest y = z := by
    have := abs_lt.mp h3
    omega
  rw [h4] at hn
  exact hn le_rfl

/-- numbers on the grid of the last place of `q` are not closer to `q` than `round q` -/
theorem round_le_grid {q : ℚ} (hq : q ≠ 0) (z : Int) : |round q - q| ≤ |z * pow2 (-place q) - q| := by
  rw [round, if_neg hq]
  have key : ∀ w : Int, |(w : ℚ) * pow2 (-place q) - q| = |(w : ℚ) - q * pow2 (place q)| * pow2 (-place q) := by
    intro w
    rw [← abs_of_pos (pow2_pos (-place q)), ← abs_mul, sub_mul, mul_assoc q, abs_of_pos (pow2_pos (-place q)), pow2_neg, mul_one]
  rw [key, key]
  exact mul_le_mul_of_nonneg_right (nearest_le _ _) (pow2_pos _).le

/-- `round` rounds to nearest -/
theorem round_nearest (q : ℚ) {r : ℚ} (hr : Rep r) : |round q - q| ≤ |r - q| := by
  by_cases hq : q = 0
  · subst hq; simp [round]
  obtain ⟨m, k, hm, hb, hk⟩ := hr
  by_cases hkp : k ≤ place q
  · have : r = ((m * 2 ^ (place q - k).toNat : Int) : ℚ) * pow2 (-place q) := by
      have h0 : 0 ≤ place q - k := by omega
      generalize place q = p at *
      rw [hm, show -k = (p - k) + -p by ring, pow2_add, ← mul_assoc]
      congr 1
      rw [pow2, if_pos h0]
      push_cast; rfl
    rw [this]
    exact round_le_grid hq _
  · -- `r` is below the binade of `q`
    have hp : place q = 52 - elog q := by unfold place at hkp ⊢; omega
    have hr : |r| < pow2 (elog q) := by
      rw [hm, abs_mul, abs_of_pos (pow2_pos _)]
      have h53 : pow2 53 = 2 ^ 53 := by simp [pow2_eq]
      have h1 : (|(m : ℚ)|) < pow2 53 := by rw [h53]; exact_mod_cast hb
      have h2 : pow2 53 * pow2 (-k) ≤ pow2 (elog q) := by rw [← pow2_add]; exact pow2_le (by omega)
      exact lt_of_lt_of_le (mul_lt_mul_of_pos_right h1 (pow2_pos _)) h2
    have hq' := (elog_spec hq).1
    have h52 : ((2 ^ 52 : Int) : ℚ) * pow2 (-place q) = pow2 (elog q) := by
      have : pow2 52 = ((2 ^ 52 : Int) : ℚ) := by rw [pow2_eq]; norm_num
      rw [← this, ← pow2_add, hp]; congr 1; ring
    rcases lt_or_gt_of_ne hq with hneg | hpos
    · have h := round_le_grid hq (-2 ^ 52)
      rw [Int.cast_neg, neg_mul, h52] at h
      refine h.trans ?_
      rw [abs_of_neg hneg] at hq'
      rw [abs_of_nonneg (by linarith)]
      have := neg_le_abs r
      exact le_trans (by linarith) (le_abs_self _)
    · have h := round_le_grid hq (2 ^ 52)
      rw [h52] at h
      refine h.trans ?_
      rw [abs_of_pos hpos] at hq'
      rw [abs_of_nonpos (by linarith), abs_sub_comm]
      have := le_abs_self r
      exact le_trans (by linarith) (le_abs_self _)

/-- `round` does not move below or above a double -/
theorem le_round {q r : ℚ} (hr : Rep r) (h : r ≤ q) : r ≤ round q := by
  have := round_nearest q hr
  rw [abs_sub_comm r, abs_of_nonneg (by linarith : 0 ≤ q - r)] at this
  have := abs_le.mp this
  linarith

theorem round_le {q r : ℚ} (hr : Rep r) (h : q ≤ r) : round q ≤ r := by
  have := round_nearest q hr
  rw [abs_of_nonneg (by linarith : 0 ≤ r - q)] at this
  have := abs_le.mp this
  linarith

/-- `round` is monotone -/
theorem round_mono {q r : ℚ} (h : q ≤ r) : round q ≤ round r := by
  by_contra hn
  have hn := not_le.mp hn
  have h1 : r < round q := by
    by_contra h'
    exact absurd (le_round (round_rep q) (not_lt.mp h')) (not_le.mpr hn)
  exact absurd (round_le (round_rep r) (show q ≤ round r by
    by_contra h'
    have h' := not_le.mp h'
    have a := round_nearest q (round_rep r)
    have b := round_nearest r (round_rep q)
    rw [abs_of_pos (by linarith : 0 < round q - q), abs_of_neg (by linarith : round r - q < 0)] at a
    rw [abs_of_neg (by linarith : round r - r < 0), abs_of_pos (by linarith : 0 < round q - r)] at b
    have : q = r := by linarith
    subst this
    exact absurd hn (lt_irrefl _))) (not_le.mpr hn)

/-- normal numbers in units of the last place -/
theorem Rep.normal {q : ℚ} (h : Rep q) (hq : q ≠ 0) (he : -1022 ≤ elog q) :
    ∃ z : Int, q = z * pow2 (elog q - 52) ∧ 2 ^ 52 ≤ |z| ∧ |z| < 2 ^ 53 := by
  have hr := round_of_rep h
  rw [round, if_neg hq] at hr
  have hp : -place q = elog q - 52 := by unfold place; omega
  obtain ⟨h1, h2⟩ := elog_spec hq
  have habs : |q| = |(nearest (q * pow2 (place q)) : ℚ)| * pow2 (elog q - 52) := by
    conv_lhs => rw [← hr]
    rw [hp, abs_mul, abs_of_pos (pow2_pos _)]
  have h52 : pow2 52 = 2 ^ 52 := by simp [pow2_eq]
  have h53 : pow2 53 = 2 ^ 53 := by simp [pow2_eq]
  refine ⟨nearest (q * pow2 (place q)), by rw [← hp]; exact hr.symm, ?_, ?_⟩
  · have : pow2 52 * pow2 (elog q - 52) ≤ |(nearest (q * pow2 (place q)) : ℚ)| * pow2 (elog q - 52) := by
      rw [← habs, ← pow2_add]; simpa using h1
    have := le_of_mul_le_mul_right this (pow2_pos _)
    rw [h52] at this
    exact_mod_cast this
  · have : |(nearest (q * pow2 (place q)) : ℚ)| * pow2 (elog q - 52) < pow2 53 * pow2 (elog q - 52) := by
      rw [← habs, ← pow2_add, show 53 + (elog q - 52) = elog q + 1 by ring]; exact h2
    have := lt_of_mul_lt_mul_right this (pow2_pos _).le
    rw [h53] at this
    exact_mod_cast this

theorem le_elog {q : ℚ} {e : Int} (hq : q ≠ 0) (h : pow2 e ≤ |q|) : e ≤ elog q := by
  by_contra hn
  have h1 := (elog_spec hq).2
  have := pow2_le (show elog q + 1 ≤ e by omega)
  linarith

theorem val_rnd {q c : ℚ} (h : val (rnd q) = some c) : c = round q := by
  unfold rnd at h
  split at h
  · simpa [val, eq_comm] using h
  · split at h <;> simp [val] at h

theorem val_signInf (q : ℚ) : val (signInf q) = none := by
  unfold signInf; split
  · rfl
  · split <;> rfl

theorem val_num {q c : ℚ} {h : Rep q} {hb : |q| < pow2 1024} : val (num q h hb) = some c ↔ q = c := by simp [val]

theorem val_pinf {c : ℚ} : ¬ val pinf = some c := by simp [val]

theorem val_ninf {c : ℚ} : ¬ val ninf = some c := by simp [val]

theorem val_nan {c : ℚ} : ¬ val nan = some c := by simp [val]

theorem val_neg (a : Dbl) : val a.neg = (val a).map (- ·) := by cases a <;> rfl

theorem val_add {a b : Dbl} {c : ℚ} (h : val (Dbl.add a b) = some c) :
    ∃ x y, val a = some x ∧ val b = some y ∧ |c - (x + y)| ≤ pow2 (-53) * |x + y| := by
  cases a <;> cases b <;> simp only [Dbl.add, val, reduceCtorEq] at h
  case num.num x hx _ y hy _ =>
    refine ⟨x, y, rfl, rfl, ?_⟩
    rw [val_rnd h]
    exact round_on_grid (hx.grid.add hy.grid)

theorem two_eq : ∃ h hb, (Scalar.two : Dbl) = num 2 h hb := by
  have h : round 2 = 2 := by decide +kernel
  have hb : |(2 : ℚ)| < pow2 1024 := by decide +kernel
  have : (Scalar.two : Dbl) = rnd 2 := by show rnd (mkRat 2 1) = rnd 2; rfl
  refine ⟨by rw [← h]; exact round_rep 2, hb, ?_⟩
  rw [this, rnd, dif_pos (by rw [h]; exact hb)]
  simp only [h]

theorem val_zero : val Scalar.zero = some 0 := by decide +kernel

theorem val_one : val Scalar.one = some 1 := by decide +kernel

/-- `double` satisfies the standard model of floating point arithmetic. -/
def rounds : Rounds Dbl ℚ (pow2 (-53)) (pow2 (-1022)) where
  val := val
  u0 := (pow2_pos _).le
  t0 := (pow2_pos _).le
  add _ _ _ h := val_add h
  sub a b c h := by
    obtain ⟨x, y, hx, hy, he⟩ := val_add (a := a) (b := b.neg) h
    rw [val_neg] at hy
    cases hb : val b with
    | none => rw [hb] at hy; cases hy
    | some z =>
      rw [hb] at hy
      injection hy with hy
      refine ⟨x, z, hx, rfl, ?_⟩
      subst hy
      rw [sub_eq_add_neg x z]
      exact he
  mul a b c h := by
    change val (Dbl.mul a b) = some c at h
    cases a <;> cases b <;> simp only [Dbl.mul, val_signInf, val_pinf, val_ninf, val_nan, reduceCtorEq] at h
    case num.num x hx _ y hy _ =>
      refine ⟨x, y, rfl, rfl, ?_⟩
      rw [val_rnd h]
      exact round_gen _
  half a c h := by
    change val (Dbl.div a Scalar.two) = some c at h
    obtain ⟨h2, _, e2⟩ := two_eq
    rw [e2] at h
    cases a <;> simp only [Dbl.div] at h
    case num x hx _ =>
      refine ⟨x, rfl, ?_⟩
      rw [if_neg (by norm_num)] at h
      rw [val_rnd h]
      exact round_gen _
    all_goals (try split at h) <;> simp [val] at h
  neg a := val_neg a
  zero := val_zero
  one := val_one
  lt a b x y hx hy := by
    cases a <;> simp only [val, reduceCtorEq] at hx
    cases b <;> simp only [val, reduceCtorEq] at hy
    injection hx with hx
    injection hy with hy
    subst hx hy
    rfl

end Dbl
end LCQ
