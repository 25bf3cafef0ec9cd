import Verif.Model.Print
import Verif.Props.Text

/-!
# Lemmas about printed numbers
-/

namespace LCQ
namespace Text

/-! ## digits -/

theorem strip_spec (s : List Char) : ∃ k, s = strip s ++ List.replicate k '0' := by
  refine ⟨(s.reverse.takeWhile (· = '0')).length, ?_⟩
  have h : s.reverse.takeWhile (· = '0') = List.replicate (s.reverse.takeWhile (· = '0')).length '0' := by
    rw [List.eq_replicate_iff]
    exact ⟨rfl, fun c hc => by simpa using List.all_eq_true.mp (List.all_takeWhile (p := (· = '0')) (l := s.reverse)) c hc⟩
  have h2 := congrArg List.reverse (List.takeWhile_append_dropWhile (p := (· = '0')) (l := s.reverse))
  rw [List.reverse_append, List.reverse_reverse] at h2
  rw [strip]
  conv_lhs => rw [← h2, h, List.reverse_replicate]

theorem strip_length (s : List Char) : (strip s).length ≤ s.length := by
  obtain ⟨k, h⟩ := strip_spec s
  have := congrArg List.length h
  rw [List.length_append] at this
  omega

theorem strip_mem {s : List Char} {c : Char} (h : c ∈ strip s) : c ∈ s := by
  obtain ⟨k, hk⟩ := strip_spec s
  rw [hk]
  exact List.mem_append_left _ h

theorem frac_length (s : List Char) : (frac s).length ≤ s.length + 1 := by
  have := strip_length s
  unfold frac
  split
  · simp
  · simp; omega

theorem ofDigits_append_zeros (a : List Char) (k : Nat) : ofDigits (a ++ List.replicate k '0') = ofDigits a * 10 ^ k := by
  rw [ofDigits, Nat.ofDigitChars_append, Nat.ofDigitChars_replicate_zero, ofDigits]
  ring

theorem value_strip (a s : List Char) :
    (ofDigits (a ++ strip s) : ℚ) / 10 ^ (strip s).length = (ofDigits (a ++ s) : ℚ) / 10 ^ s.length := by
  obtain ⟨k, h⟩ := strip_spec s
  have h1 : ofDigits (a ++ s) = ofDigits (a ++ strip s) * 10 ^ k := by
    conv_lhs => rw [h, ← List.append_assoc]
    exact ofDigits_append_zeros _ _
  have h2 : s.length = (strip s).length + k := by
    have := congrArg List.length h
    rw [List.length_append, List.length_replicate] at this
    omega
  rw [h1, h2, pow_add]
  push_cast
  field_simp

theorem ofDigits_zeros (k : Nat) (ds : List Char) : ofDigits (List.replicate k '0' ++ ds) = ofDigits ds := by
  rw [ofDigits, Nat.ofDigitChars_append, Nat.ofDigitChars_replicate_zero, Nat.mul_zero, ofDigits]

theorem ofDigits_nat (n : Nat) : ofDigits (nat n) = n := by
  rw [ofDigits, nat, Nat.ofDigitChars_toDigits (by decide) (by decide)]

theorem nat_length_le {n k : Nat} (hk : 0 < k) (h : n < 10 ^ k) : (nat n).length ≤ k :=
  (Nat.length_toDigits_le_iff (by decide) hk).mpr h

theorem nat_length3 {n : Nat} (h1 : 100 ≤ n) (h2 : n < 1000) : (nat n).length = 3 := by
  have h3 : (nat n).length ≤ 3 := nat_length_le (by decide) (by simpa using h2)
  have h4 : ¬ (nat n).length ≤ 2 := by
    intro h
    have : n < 10 ^ 2 := (Nat.length_toDigits_le_iff (by decide) (by decide)).mp h
    omega
  omega

/-! ## three significant digits -/

theorem ten_pos (k : Int) : (0 : ℚ) < (10 : ℚ) ^ k := zpow_pos (by norm_num) k

theorem ten_two (x : Int) : (10 : ℚ) ^ x = 100 * 10 ^ (x - 2) := by
  rw [show x = (x - 2) + 2 by ring, zpow_add₀ (by norm_num)]
  norm_num
  ring

theorem ten_three (x : Int) : (10 : ℚ) ^ (x + 1) = 1000 * 10 ^ (x - 2) := by
  rw [show x + 1 = (x - 2) + 3 by ring, zpow_add₀ (by norm_num)]
  norm_num
  ring

/-- `sig` written with the exponent of the first digit before rounding -/
theorem sig_spec {q : ℚ} (hq : q ≠ 0) : ∃ N : Int, 100 ≤ N ∧ N ≤ 1000 ∧ N = Dbl.nearest (|q| / 10 ^ (Int.log 10 |q| - 2)) ∧
    ((sig q).1 : ℚ) * 10 ^ ((sig q).2 - 2) = N * 10 ^ (Int.log 10 |q| - 2) ∧ 100 ≤ (sig q).1 ∧ (sig q).1 < 1000 ∧
    Int.log 10 |q| ≤ (sig q).2 ∧ (sig q).2 ≤ Int.log 10 |q| + 1 := by
  have hpos : 0 < |q| := abs_pos.mpr hq
  have h1 : (10 : ℚ) ^ Int.log 10 |q| ≤ |q| := by
    have := Int.zpow_log_le_self (b := 10) (by norm_num) hpos
    exact_mod_cast this
  have h2 : |q| < (10 : ℚ) ^ (Int.log 10 |q| + 1) := by
    have := Int.lt_zpow_succ_log_self (b := 10) (by norm_num) |q|
    exact_mod_cast this
  rw [ten_two] at h1
  rw [ten_three] at h2
  have ht := ten_pos (Int.log 10 |q| - 2)
  have h3 : ((100 : Int) : ℚ) ≤ |q| / 10 ^ (Int.log 10 |q| - 2) := by
    rw [le_div_iff₀ ht]; push_cast; exact h1
  have h4 : |q| / 10 ^ (Int.log 10 |q| - 2) ≤ ((1000 : Int) : ℚ) := by
    rw [div_le_iff₀ ht]; push_cast; exact h2.le
  have h5 := nearest_mono h3
  have h6 := nearest_mono h4
  rw [Dbl.nearest_int] at h5 h6
  refine ⟨_, h5, h6, rfl, ?_⟩
  have hs : sig q = if (Dbl.nearest (|q| / 10 ^ (Int.log 10 |q| - 2))).natAbs = 1000 then (100, Int.log 10 |q| + 1)
    else ((Dbl.nearest (|q| / 10 ^ (Int.log 10 |q| - 2))).natAbs, Int.log 10 |q|) := rfl
  generalize Dbl.nearest (|q| / 10 ^ (Int.log 10 |q| - 2)) = N at *
  generalize Int.log 10 |q| = X at *
  have hN : ((N.natAbs : Nat) : ℚ) = N := by
    have : ((N.natAbs : Nat) : Int) = N := by omega
    rw [← Int.cast_natCast, this]
  rw [hs]
  split
  · rename_i h
    have : N = 1000 := by omega
    subst this
    refine ⟨?_, by norm_num, by norm_num, by simp, by simp⟩
    simp only
    rw [show X + 1 - 2 = (X - 2) + 1 by ring, zpow_add₀ (by norm_num)]
    norm_num
    ring
  · exact ⟨by simp only; rw [hN], by simp only; omega, by simp only; omega, by simp, by simp⟩

theorem sig_err {q : ℚ} (hq : q ≠ 0) : |((sig q).1 : ℚ) * 10 ^ ((sig q).2 - 2) - abs q| ≤ |q| / 200 ∧
    |((sig q).1 : ℚ) * 10 ^ ((sig q).2 - 2) - abs q| ≤ 10 ^ ((sig q).2 - 2) / 2 := by
  obtain ⟨N, _, _, hN, hv, _, _, hx, _⟩ := sig_spec hq
  have hpos : 0 < |q| := abs_pos.mpr hq
  have h1 : (10 : ℚ) ^ Int.log 10 |q| ≤ |q| := by
    have := Int.zpow_log_le_self (b := 10) (by norm_num) hpos
    exact_mod_cast this
  rw [ten_two] at h1
  have ht := ten_pos (Int.log 10 |q| - 2)
  have he := Dbl.nearest_err (|q| / 10 ^ (Int.log 10 |q| - 2))
  rw [← hN] at he
  have e : (N : ℚ) * 10 ^ (Int.log 10 |q| - 2) - |q| = (N - |q| / 10 ^ (Int.log 10 |q| - 2)) * 10 ^ (Int.log 10 |q| - 2) := by
    field_simp
  have hb : |(N : ℚ) * 10 ^ (Int.log 10 |q| - 2) - abs q| ≤ 10 ^ (Int.log 10 |q| - 2) / 2 := by
    rw [e, abs_mul, abs_of_pos ht]
    have := mul_le_mul_of_nonneg_right he ht.le
    linarith
  rw [hv]
  refine ⟨hb.trans (by linarith), hb.trans ?_⟩
  have : (10 : ℚ) ^ (Int.log 10 |q| - 2) ≤ 10 ^ ((sig q).2 - 2) := zpow_le_zpow_right₀ (by norm_num) (by omega)
  linarith

/-- no number with three significant digits is closer -/
theorem sig_nearest {q : ℚ} (hq : q ≠ 0) {j : Int} (l : Int) (hj : |j| < 1000) :
    |((sig q).1 : ℚ) * 10 ^ ((sig q).2 - 2) - abs q| ≤ |(j : ℚ) * 10 ^ l - abs q| := by
  obtain ⟨N, _, _, hN, hv, _, _, hx, _⟩ := sig_spec hq
  have hpos : 0 < |q| := abs_pos.mpr hq
  have h1 : (10 : ℚ) ^ Int.log 10 |q| ≤ |q| := by
    have := Int.zpow_log_le_self (b := 10) (by norm_num) hpos
    exact_mod_cast this
  have ht := ten_pos (Int.log 10 |q| - 2)
  have key : ∀ z : Int, |(N : ℚ) * 10 ^ (Int.log 10 |q| - 2) - abs q| ≤ |(z : ℚ) * 10 ^ (Int.log 10 |q| - 2) - abs q| := by
    intro z
    have he := Dbl.nearest_le (|q| / 10 ^ (Int.log 10 |q| - 2)) z
    rw [← hN] at he
    have e : ∀ y : ℚ, y * 10 ^ (Int.log 10 |q| - 2) - |q| = (y - |q| / 10 ^ (Int.log 10 |q| - 2)) * 10 ^ (Int.log 10 |q| - 2) := by
      intro y; field_simp
    rw [e, e, abs_mul, abs_mul, abs_of_pos ht]
    exact mul_le_mul_of_nonneg_right he ht.le
  rw [hv]
  by_cases hl : Int.log 10 |q| - 2 ≤ l
  · obtain ⟨k, hk⟩ := Int.eq_ofNat_of_zero_le (show 0 ≤ l - (Int.log 10 |q| - 2) by omega)
    have := key (j * 10 ^ k)
    rw [show l = (k : Int) + (Int.log 10 |q| - 2) by omega, zpow_add₀ (by norm_num), ← mul_assoc]
    rw [zpow_natCast]
    push_cast at this
    exact this
  · refine (key 100).trans ?_
    push_cast
    rw [← ten_two]
    have h2 : (j : ℚ) * 10 ^ l ≤ 10 ^ Int.log 10 |q| := by
      have h3 : (j : ℚ) ≤ 1000 := by
        have : j ≤ 1000 := by have := abs_lt.mp hj; omega
        exact_mod_cast this
      have h4 : (10 : ℚ) ^ (l + 3) ≤ 10 ^ Int.log 10 |q| := zpow_le_zpow_right₀ (by norm_num) (by omega)
      rw [zpow_add₀ (by norm_num)] at h4
      have h5 := mul_le_mul_of_nonneg_right h3 (ten_pos l).le
      norm_num at h4 h5 ⊢
      linarith
    rw [abs_of_nonpos (sub_nonpos.mpr h1), abs_of_nonpos (sub_nonpos.mpr (h2.trans h1))]
    linarith

/-! ## reading what is printed -/

/-- the parts of the text as a decimal literal -/
theorem style_lit (neg : Bool) {ds : List Char} (x : Int) (h3 : ds.length = 3) (hd : ∀ c ∈ ds, c.isDigit = true) :
    ∃ as fs ex, (if neg then ['-'] else []) ++ style ds x = decLit neg as fs ex ∧ as ≠ [] ∧ (∀ c ∈ as, c.isDigit = true) ∧
      (∀ c ∈ fs, c.isDigit = true) ∧ (∀ m es, ex = some (m, es) → es ≠ [] ∧ ∀ c ∈ es, c.isDigit = true) ∧
      decVal neg as fs ex = (if neg then -1 else 1) * (ofDigits ds * 10 ^ (x - 2)) := by
  have hfs : ∀ s : List Char, (if strip s = [] then [] else '.' :: strip s) = frac s := fun s => rfl
  have h10 : (10 : ℚ) ≠ 0 := by norm_num
  by_cases hx : -4 ≤ x ∧ x < 3
  · by_cases h0 : 0 ≤ x
    · refine ⟨ds.take (x.toNat + 1), strip (ds.drop (x.toNat + 1)), none, ?_, ?_, ?_, ?_, ?_, ?_⟩
      · unfold decLit
        rw [style, if_pos hx, if_pos h0, hfs]
        simp [expLit]
      · intro h
        have := congrArg List.length h
        simp [h3] at this
      · exact fun c hc => hd c (List.mem_of_mem_take hc)
      · exact fun c hc => hd c (List.mem_of_mem_drop (strip_mem hc))
      · rintro m es ⟨⟩
      · unfold decVal
        have := value_strip (ds.take (x.toNat + 1)) (ds.drop (x.toNat + 1))
        simp only [ofDigits] at this
        rw [mul_div_assoc, this, List.take_append_drop, expVal, List.length_drop, h3, mul_one]
        congr 1
        rw [ofDigits, div_eq_mul_inv, ← zpow_natCast, ← zpow_neg]
        congr 2
        omega
    · have h0 : x < 0 := not_le.mp h0
      refine ⟨['0'], strip (List.replicate ((-x).toNat - 1) '0' ++ ds), none, ?_, by simp, by simp, ?_, ?_, ?_⟩
      · unfold decLit
        rw [style, if_pos hx, if_neg (not_le.mpr h0), hfs]
        simp [expLit]
      · intro c hc
        have := strip_mem hc
        rw [List.mem_append, List.mem_replicate] at this
        rcases this with ⟨_, rfl⟩ | h
        · decide
        · exact hd c h
      · rintro m es ⟨⟩
      · unfold decVal
        have := value_strip ['0'] (List.replicate ((-x).toNat - 1) '0' ++ ds)
        have hz : ofDigits (['0'] ++ (List.replicate ((-x).toNat - 1) '0' ++ ds)) = ofDigits ds := by
          rw [← List.append_assoc, show ['0'] ++ List.replicate ((-x).toNat - 1) '0' = List.replicate ((-x).toNat - 1 + 1) '0' from
            List.replicate_succ.symm, ofDigits_zeros]
        rw [hz] at this
        simp only [ofDigits] at this
        rw [mul_div_assoc, this, expVal, List.length_append, List.length_replicate, h3, mul_one]
        congr 1
        rw [ofDigits, div_eq_mul_inv, ← zpow_natCast, ← zpow_neg]
        congr 2
        omega
  · refine ⟨ds.take 1, strip (ds.drop 1), some (decide (x < 0), List.replicate (2 - (nat x.natAbs).length) '0' ++ nat x.natAbs),
      ?_, ?_, ?_, ?_, ?_, ?_⟩
    · unfold decLit
      rw [style, if_neg hx, hfs, expLit, expo]
      by_cases h0 : x < 0 <;> simp [h0]
    · intro h
      have := congrArg List.length h
      simp [h3] at this
    · exact fun c hc => hd c (List.mem_of_mem_take hc)
    · exact fun c hc => hd c (List.mem_of_mem_drop (strip_mem hc))
    · rintro m es ⟨⟩
      refine ⟨?_, ?_⟩
      · intro h
        rw [List.append_eq_nil_iff] at h
        exact nat_ne _ h.2
      · intro c hc
        rw [List.mem_append, List.mem_replicate] at hc
        rcases hc with ⟨_, rfl⟩ | h
        · decide
        · exact nat_digits _ c h
    · unfold decVal
      have := value_strip (ds.take 1) (ds.drop 1)
      simp only [ofDigits] at this
      rw [mul_div_assoc, this, List.take_append_drop, expVal, List.length_drop, h3]
      have hz := ofDigits_zeros (2 - (nat x.natAbs).length) (nat x.natAbs)
      rw [ofDigits_nat, ofDigits] at hz
      rw [hz, mul_assoc]
      congr 1
      rw [ofDigits, zpow_sub₀ h10, div_mul_eq_mul_div, mul_div_assoc]
      congr 1
      by_cases h0 : x < 0
      · rw [decide_eq_true h0, if_pos rfl, ← zpow_natCast, ← zpow_neg, show -((x.natAbs : Nat) : Int) = x by omega]
        norm_num
      · rw [decide_eq_false h0, if_neg (by simp), ← zpow_natCast, show ((x.natAbs : Nat) : Int) = x by omega]
        norm_num

theorem style_length {ds : List Char} {x : Int} (h3 : ds.length = 3) (hx : x.natAbs < 1000) : (style ds x).length ≤ 9 := by
  unfold style
  split
  · rename_i h
    split
    · have := frac_length (ds.drop (x.toNat + 1))
      rw [List.length_drop] at this
      rw [List.length_append, List.length_take]
      omega
    · have := frac_length (List.replicate ((-x).toNat - 1) '0' ++ ds)
      rw [List.length_append, List.length_replicate] at this
      rw [List.length_cons]
      omega
  · have := frac_length (ds.drop 1)
    rw [List.length_drop] at this
    have h1 : (nat x.natAbs).length ≤ 3 := nat_length_le (by decide) (by simpa using hx)
    rw [List.length_append, List.length_append, List.length_take, expo]
    simp only [List.length_append, List.length_replicate, List.length_cons, List.length_nil]
    omega

/-- decimal exponents of doubles have at most three digits -/
theorem sig_exp {q : ℚ} (hq : q ≠ 0) (h : Dbl.Rep q) (hb : |q| < Dbl.pow2 1024) : (sig q).2.natAbs < 1000 := by
  have hpos : 0 < |q| := abs_pos.mpr hq
  obtain ⟨_, _, _, _, _, _, _, h1, h2⟩ := sig_spec hq
  have hu : Int.log 10 |q| < 309 := by
    rw [← Int.lt_zpow_iff_log_lt (by norm_num) hpos]
    refine hb.trans ?_
    rw [Dbl.pow2_eq]
    rw [show (1024 : Int) = ((256 * 4 : Nat) : Int) by norm_num, show (309 : Int) = ((103 * 3 : Nat) : Int) by norm_num, zpow_natCast,
      zpow_natCast, pow_mul, pow_mul]
    norm_num
  have hl : -324 ≤ Int.log 10 |q| := by
    rw [← Int.zpow_le_iff_le_log (by norm_num) hpos]
    obtain ⟨m, k, hm, _, hk⟩ := h
    have hm0 : m ≠ 0 := by rintro rfl; apply hq; rw [hm]; simp
    have hm1 : (1 : ℚ) ≤ |(m : ℚ)| := by exact_mod_cast Int.one_le_abs hm0
    have h3 : Dbl.pow2 (-1074) ≤ |q| := by
      rw [hm, abs_mul, abs_of_pos (Dbl.pow2_pos _)]
      have h4 : Dbl.pow2 (-1074) ≤ Dbl.pow2 (-k) := Dbl.pow2_le (by omega)
      have h5 := mul_le_mul_of_nonneg_right hm1 (Dbl.pow2_pos (-k)).le
      linarith
    refine le_trans ?_ h3
    rw [Dbl.pow2_eq, zpow_neg, zpow_neg]
    apply inv_anti₀ (zpow_pos (by norm_num) _)
    rw [show (1074 : Int) = ((179 * 6 : Nat) : Int) by norm_num, show (324 : Int) = ((108 * 3 : Nat) : Int) by norm_num, zpow_natCast,
      zpow_natCast, pow_mul, pow_mul]
    norm_num
  omega

theorem dec_length {z : Int} (h1 : -100000 < z) (h2 : z < 1000000) : (dec z).length ≤ 6 := by
  unfold dec
  split
  · have : (nat z.natAbs).length ≤ 5 := nat_length_le (by decide) (by omega)
    simp; omega
  · have : (nat z.natAbs).length ≤ 6 := nat_length_le (by decide) (by omega)
    simp; omega

theorem pad_length {w : Nat} {s : List Char} (h : s.length ≤ w) : (pad w s).length = w := by
  rw [pad, List.length_append, List.length_replicate]; omega

theorem skip_pad (w : Nat) (s r : List Char) : skip (pad w s ++ r) = skip (s ++ r) := by
  rw [pad, List.append_assoc, skip, List.dropWhile_append_of_pos]
  · rfl
  · intro c hc
    rw [(List.mem_replicate.mp hc).2]
    decide

end Text
end LCQ
