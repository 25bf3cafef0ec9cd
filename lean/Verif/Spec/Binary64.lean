import Verif.Spec.Rounding
import Mathlib.Data.Rat.Floor
import Mathlib.Tactic.Linarith
import Mathlib.Tactic.Ring
import Mathlib.Tactic.Positivity
import Mathlib.Tactic.NormNum

/-!
# IEEE 754 binary64 (specification)

`Dbl` are the values of a `double`: the numbers `m * 2^-k` with `|m| < 2^53` and `k ≤ 1074` of absolute value less
than `2^1024`, the infinities and `NaN`.  The two zeros are one number, and a division by zero takes the zero for `+0`.  Results are rounded to nearest, ties to even,
with gradual underflow and overflow to infinity.
-/

namespace LCQ
namespace Dbl

/-- `2^e` -/
def pow2 (e : Int) : ℚ := if 0 ≤ e then ((2 ^ e.toNat : Nat) : ℚ) else mkRat 1 (2 ^ (-e).toNat)

/-- the exponent of `q ≠ 0`: the largest `e` with `2^e ≤ |q|` -/
def elog (q : ℚ) : Int :=
  let e : Int := (Nat.log2 q.num.natAbs : Int) - (Nat.log2 q.den : Int)
  if pow2 e ≤ |q| then e else e - 1

/-- the integer next to `y`, the even one if there are two -/
def nearest (y : ℚ) : Int :=
  let f := y.floor
  if y - f < 1 / 2 then f else if 1 / 2 < y - f then f + 1 else if f % 2 = 0 then f else f + 1

/-- scaling which makes the last place of `q` the units place: 53 bits, the last place is not below `2^-1074` -/
def place (q : ℚ) : Int := 52 - max (elog q) (-1022)

/-- `q` rounded to 53 bits, not limited from above -/
def round (q : ℚ) : ℚ := if q = 0 then 0 else nearest (q * pow2 (place q)) * pow2 (-place q)

/-- `q` has 53 significant bits and is a multiple of the smallest positive number -/
def Rep (q : ℚ) : Prop := ∃ m k : Int, q = m * pow2 (-k) ∧ |m| < 2 ^ 53 ∧ k ≤ 1074

/-! ## `round` yields such numbers and keeps them -/

theorem pow2_eq (e : Int) : pow2 e = (2 : ℚ) ^ e := by
  unfold pow2
  split
  case isTrue h =>
    obtain ⟨k, rfl⟩ := Int.eq_ofNat_of_zero_le h
    simp
  case isFalse h =>
    obtain ⟨k, hk⟩ := Int.eq_ofNat_of_zero_le (show 0 ≤ -e by omega)
    have : e = -(k : Int) := by omega
    subst this
    simp [Rat.mkRat_eq_div]

theorem pow2_pos (e : Int) : 0 < pow2 e := by
  rw [pow2_eq]; exact zpow_pos (by norm_num) _

theorem pow2_add (d e : Int) : pow2 (d + e) = pow2 d * pow2 e := by
  simp only [pow2_eq]; exact zpow_add₀ (by norm_num) _ _

theorem pow2_neg (e : Int) : pow2 e * pow2 (-e) = 1 := by
  rw [← pow2_add, add_neg_cancel]; simp [pow2_eq]

theorem pow2_le {d e : Int} (h : d ≤ e) : pow2 d ≤ pow2 e := by
  simp only [pow2_eq]; exact zpow_le_zpow_right₀ (by norm_num) h

theorem pow2_one : pow2 1 = 2 := by simp [pow2_eq]

/-- `elog` is the exponent -/
theorem elog_spec {q : ℚ} (hq : q ≠ 0) : pow2 (elog q) ≤ |q| ∧ |q| < pow2 (elog q + 1) := by
  have hn : q.num.natAbs ≠ 0 := by simpa using hq
  have hd := q.den_nz
  have hq' : |q| = (q.num.natAbs : ℚ) / (q.den : ℚ) := by
    conv_lhs => rw [← Rat.num_div_den q]
    rw [abs_div, Nat.abs_cast, Nat.cast_natAbs, Int.cast_abs]
  have a1 : pow2 (Nat.log2 q.num.natAbs) ≤ (q.num.natAbs : ℚ) := by
    rw [pow2_eq, zpow_natCast]; exact_mod_cast Nat.log2_self_le hn
  have a2 : (q.num.natAbs : ℚ) < pow2 (Nat.log2 q.num.natAbs + 1) := by
    have := Nat.lt_log2_self (n := q.num.natAbs)
    rw [pow2_eq]; exact_mod_cast this
  have b1 : pow2 (Nat.log2 q.den) ≤ (q.den : ℚ) := by
    rw [pow2_eq, zpow_natCast]; exact_mod_cast Nat.log2_self_le hd
  have b2 : (q.den : ℚ) < pow2 (Nat.log2 q.den + 1) := by
    have := Nat.lt_log2_self (n := q.den)
    rw [pow2_eq]; exact_mod_cast this
  have hdp : (0 : ℚ) < q.den := by exact_mod_cast Nat.pos_of_ne_zero hd
  have c1 : pow2 ((Nat.log2 q.num.natAbs : Int) - Nat.log2 q.den - 1) ≤ |q| := by
    rw [hq', le_div_iff₀ hdp]
    have h1 : pow2 ((Nat.log2 q.num.natAbs : Int) - Nat.log2 q.den - 1) * pow2 (Nat.log2 q.den + 1) =
        pow2 (Nat.log2 q.num.natAbs) := by rw [← pow2_add]; congr 1; ring
    have h2 := mul_le_mul_of_nonneg_left b2.le (pow2_pos ((Nat.log2 q.num.natAbs : Int) - Nat.log2 q.den - 1)).le
    linarith
  have c2 : |q| < pow2 ((Nat.log2 q.num.natAbs : Int) - Nat.log2 q.den + 1) := by
    rw [hq', div_lt_iff₀ hdp]
    have h1 : pow2 ((Nat.log2 q.num.natAbs : Int) - Nat.log2 q.den + 1) * pow2 (Nat.log2 q.den) =
        pow2 (Nat.log2 q.num.natAbs + 1) := by rw [← pow2_add]; congr 1; ring
    have h2 := mul_le_mul_of_nonneg_left b1 (pow2_pos ((Nat.log2 q.num.natAbs : Int) - Nat.log2 q.den + 1)).le
    linarith
  unfold elog
  dsimp only
  split
  case isTrue h => exact ⟨h, c2⟩
  case isFalse h =>
    refine ⟨c1, ?_⟩
    rw [show (Nat.log2 q.num.natAbs : Int) - Nat.log2 q.den - 1 + 1 = (Nat.log2 q.num.natAbs : Int) - Nat.log2 q.den by ring]
    exact not_le.mp h

theorem floor_spec (y : ℚ) : (y.floor : ℚ) ≤ y ∧ y < y.floor + 1 := by
  have : y.floor = ⌊y⌋ := rfl
  rw [this]
  exact ⟨Int.floor_le y, Int.lt_floor_add_one y⟩

/-- `nearest` is off by at most one half -/
theorem nearest_err (y : ℚ) : |(nearest y : ℚ) - y| ≤ 1 / 2 := by
  obtain ⟨h1, h2⟩ := floor_spec y
  unfold nearest
  dsimp only
  rw [abs_le]
  split
  · constructor <;> linarith
  · split
    · push_cast; constructor <;> linarith
    · split
      · constructor <;> linarith
      · push_cast; constructor <;> linarith

theorem nearest_int (z : Int) : nearest z = z := by
  have : (z : ℚ).floor = z := Rat.floor_intCast z
  unfold nearest
  dsimp only
  rw [this, if_pos (by norm_num)]

/-- the rounding error in units of the last place -/
theorem round_err (q : ℚ) (hq : q ≠ 0) : |round q - q| ≤ 1 / 2 * pow2 (-place q) := by
  rw [round, if_neg hq]
  have h := nearest_err (q * pow2 (place q))
  have e : (nearest (q * pow2 (place q)) : ℚ) * pow2 (-place q) - q =
      ((nearest (q * pow2 (place q)) : ℚ) - q * pow2 (place q)) * pow2 (-place q) := by
    rw [sub_mul, mul_assoc q, pow2_neg, mul_one]
  rw [e, abs_mul, abs_of_pos (pow2_pos (-place q))]
  exact mul_le_mul_of_nonneg_right h (pow2_pos _).le

theorem half_place {q : ℚ} : 1 / 2 * pow2 (-place q) = pow2 (-53) * pow2 (max (elog q) (-1022)) := by
  have : pow2 (-1) = 1 / 2 := by simp [pow2_eq]
  rw [← this, ← pow2_add, ← pow2_add, place]
  congr 1; ring

theorem elog_lt {q : ℚ} {e : Int} (hq : q ≠ 0) (h : |q| < pow2 e) : elog q < e := by
  by_contra hn
  have := (elog_spec hq).1
  have := pow2_le (not_lt.mp hn)
  linarith

theorem round_rep (q : ℚ) : Rep (round q) := by
  unfold round
  split
  case isTrue => exact ⟨0, 0, by simp, by norm_num, by norm_num⟩
  case isFalse hq =>
    have h53 : pow2 53 = 2 ^ 53 := by simp [pow2_eq]
    have hk : place q ≤ 1074 := by unfold place; omega
    have hb : |q * pow2 (place q)| < 2 ^ 53 := by
      rw [abs_mul, abs_of_pos (pow2_pos _), ← h53]
      have h1 := (elog_spec hq).2
      have h2 : pow2 (elog q + 1) * pow2 (place q) ≤ pow2 53 := by
        rw [← pow2_add]; exact pow2_le (by unfold place; omega)
      exact lt_of_lt_of_le (mul_lt_mul_of_pos_right h1 (pow2_pos _)) h2
    have hn : |nearest (q * pow2 (place q))| ≤ 2 ^ 53 := by
      have h1 := nearest_err (q * pow2 (place q))
      have h2 : |(nearest (q * pow2 (place q)) : ℚ)| < 2 ^ 53 + 1 := by
        have := abs_sub_abs_le_abs_sub (nearest (q * pow2 (place q)) : ℚ) (q * pow2 (place q))
        linarith
      have h3 : |nearest (q * pow2 (place q))| < 2 ^ 53 + 1 := by exact_mod_cast h2
      omega
    rcases lt_or_eq_of_le hn with h | h
    · exact ⟨_, _, rfl, h, hk⟩
    · obtain ⟨s, hs, hs'⟩ : ∃ s : Int, nearest (q * pow2 (place q)) = s * 2 ∧ |s| = 2 ^ 52 := by
        rcases abs_choice (nearest (q * pow2 (place q))) with h' | h'
        · exact ⟨2 ^ 52, by omega, by norm_num⟩
        · exact ⟨-2 ^ 52, by omega, by norm_num⟩
      refine ⟨s, place q - 1, ?_, by rw [hs']; norm_num, by omega⟩
      rw [hs, show -(place q - 1) = 1 + -place q by ring, pow2_add, pow2_one]
      push_cast; ring

theorem round_of_rep {q : ℚ} (h : Rep q) : round q = q := by
  unfold round
  split
  case isTrue hq => exact hq.symm
  case isFalse hq =>
    obtain ⟨m, k, hm, hb, hk⟩ := h
    have he : elog q < 53 - k := by
      apply elog_lt hq
      rw [hm, abs_mul, abs_of_pos (pow2_pos _), show 53 - k = 53 + -k by ring, pow2_add]
      refine mul_lt_mul_of_pos_right ?_ (pow2_pos _)
      have : pow2 53 = 2 ^ 53 := by simp [pow2_eq]
      rw [this]
      exact_mod_cast hb
    have hp : 0 ≤ place q - k := by unfold place; omega
    have : q * pow2 (place q) = ((m * 2 ^ (place q - k).toNat : Int) : ℚ) := by
      generalize place q = p at hp
      rw [hm, mul_assoc, ← pow2_add, show -k + p = p - k by ring, pow2, if_pos hp]
      push_cast; rfl
    rw [this, nearest_int, ← this, mul_assoc, pow2_neg, mul_one]

theorem Rep.neg {q : ℚ} (h : Rep q) : Rep (-q) := by
  obtain ⟨m, k, hm, hb, hk⟩ := h
  exact ⟨-m, k, by rw [hm]; simp, by rwa [abs_neg], hk⟩

theorem Rep.abs {q : ℚ} (h : Rep q) : Rep |q| := by
  rcases abs_choice q with h' | h' <;> rw [h']
  · exact h
  · exact h.neg

end Dbl

/-! ## values and operations -/

/-- the values of a `double` -/
inductive Dbl where
  | num (q : ℚ) (h : Dbl.Rep q) (hb : |q| < Dbl.pow2 1024)
  | pinf
  | ninf
  | nan

namespace Dbl

/-- the double next to `q` -/
def rnd (q : ℚ) : Dbl :=
  if h : |round q| < pow2 1024 then num (round q) (round_rep q) h else if 0 < q then pinf else ninf

/-- infinity with the sign of `q` (`q ≠ 0`), `NaN` for `q = 0` -/
def signInf (q : ℚ) : Dbl := if 0 < q then pinf else if q < 0 then ninf else nan

/-- negation -/
protected def neg : Dbl → Dbl
  | num a h hb => num (-a) h.neg (by rwa [abs_neg])
  | pinf => ninf
  | ninf => pinf
  | nan => nan

/-- addition -/
protected def add : Dbl → Dbl → Dbl
  | num a _ _, num b _ _ => rnd (a + b)
  | nan, _ => nan
  | _, nan => nan
  | pinf, ninf => nan
  | ninf, pinf => nan
  | pinf, _ => pinf
  | _, pinf => pinf
  | ninf, _ => ninf
  | _, ninf => ninf

/-- multiplication -/
protected def mul : Dbl → Dbl → Dbl
  | num a _ _, num b _ _ => rnd (a * b)
  | nan, _ => nan
  | _, nan => nan
  | pinf, num b _ _ => signInf b
  | ninf, num b _ _ => signInf (-b)
  | num a _ _, pinf => signInf a
  | num a _ _, ninf => signInf (-a)
  | pinf, pinf => pinf
  | ninf, ninf => pinf
  | pinf, ninf => ninf
  | ninf, pinf => ninf

/-- division (a zero divisor counts as `+0`) -/
protected def div : Dbl → Dbl → Dbl
  | num a _ _, num b _ _ => if b = 0 then signInf a else rnd (a / b)
  | nan, _ => nan
  | _, nan => nan
  | num _ _ _, pinf => rnd 0
  | num _ _ _, ninf => rnd 0
  | pinf, num b _ _ => if b < 0 then ninf else pinf
  | ninf, num b _ _ => if b < 0 then pinf else ninf
  | _, _ => nan

/-- `fabs` -/
protected def abs : Dbl → Dbl
  | num a h hb => num |a| h.abs (by rwa [abs_abs])
  | pinf => pinf
  | ninf => pinf
  | nan => nan

/-- `<` (false if an operand is NaN) -/
protected def lt : Dbl → Dbl → Bool
  | num a _ _, num b _ _ => decide (a < b)
  | nan, _ => false
  | _, nan => false
  | pinf, _ => false
  | _, ninf => false
  | ninf, _ => true
  | num _ _ _, pinf => true

/-- `<=` (false if an operand is NaN) -/
protected def le : Dbl → Dbl → Bool
  | num a _ _, num b _ _ => decide (a ≤ b)
  | nan, _ => false
  | _, nan => false
  | ninf, _ => true
  | _, pinf => true
  | pinf, _ => false
  | num _ _ _, ninf => false

instance : Scalar Dbl where
  add := Dbl.add
  sub a b := Dbl.add a b.neg
  mul := Dbl.mul
  div := Dbl.div
  neg := Dbl.neg
  abs := Dbl.abs
  lt := Dbl.lt
  le := Dbl.le
  lit m e := rnd (mkRat m (10 ^ e))
  inf := pinf

/-- the number which a finite double stands for -/
def val : Dbl → Option ℚ
  | num q _ _ => some q
  | _ => none

end Dbl
end LCQ
