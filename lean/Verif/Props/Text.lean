import Verif.Lemmas.Text
import Verif.Props.Files

/-!
# C72 data files as text
-/

namespace LCQ
open Dbl

/-! ## reading -/

/-- C72: every text is read as one sequence of numbers, -/
theorem C72_tokens (t : List Char) : (∃! ts, Text.Toks Text.Number t ts) ∧ ∃! ts, Text.Toks Text.Integer t ts := by
  constructor
  · obtain ⟨ts, h⟩ := Text.toks_exists (num := Text.float) (fun _ _ _ h => Text.float_lt h) _ t le_rfl
    exact ⟨ts, (Text.ftoks_iff Text.float_iff t ts).mpr h, fun us g => Text.toks_unique ((Text.ftoks_iff Text.float_iff t us).mp g) h⟩
  · obtain ⟨ts, h⟩ := Text.toks_exists (num := Text.int) (fun _ _ _ h => Text.int_lt h) _ t le_rfl
    exact ⟨ts, (Text.ftoks_iff Text.int_iff t ts).mpr h, fun us g => Text.toks_unique ((Text.ftoks_iff Text.int_iff t us).mp g) h⟩

/-- C72: the conversions find exactly the numbers of the grammar. -/
theorem C72_number (t u : List Char) : (∀ v, Text.float t = some (v, u) ↔ Text.Number t v u) ∧
    ∀ v, Text.int t = some (v, u) ↔ Text.Integer t v u :=
  ⟨fun v => Text.float_iff t v u, fun v => Text.int_iff t v u⟩

/-- C72: and reading the text is reading that sequence, so the theorems C41 hold for the text of files. -/
theorem C72_read {t : List Char} {ts : List (Tok Dbl)} (h : Text.Toks Text.Number t ts) (b : List Dbl) (n : Nat) :
    Text.readFile (some t) b n = readFile (some ts) b n ∧ Text.readFile none b n = readFile none b n :=
  ⟨Text.readLoop_toks ((Text.ftoks_iff Text.float_iff t ts).mp h) b n, rfl⟩

/-- C72: the same for files of integers. -/
theorem C72_read_int {t : List Char} {ts : List (Tok Int)} (h : Text.Toks Text.Integer t ts) (b : List Int) (n : Nat) :
    Text.readFileInt (some t) b n = readFileInt (some ts) b n ∧ Text.readFileInt none b n = readFileInt none b n :=
  ⟨Text.readLoop_toks ((Text.ftoks_iff Text.int_iff t ts).mp h) b n, rfl⟩

/-- exponent of a decimal literal -/
def expLit : Option (Bool × List Char) → List Char
  | none => []
  | some (m, es) => 'e' :: ((if m then ['-'] else ['+']) ++ es)

/-- its value -/
def expVal : Option (Bool × List Char) → ℚ
  | none => 1
  | some (m, es) => if m then (10 ^ Nat.ofDigitChars 10 es 0)⁻¹ else 10 ^ Nat.ofDigitChars 10 es 0

/-- decimal literal: sign, digits before and after the point, exponent -/
def decLit (neg : Bool) (ds fs : List Char) (ex : Option (Bool × List Char)) : List Char :=
  (if neg then ['-'] else []) ++ ds ++ (if fs = [] then [] else '.' :: fs) ++ expLit ex

/-- its value -/
def decVal (neg : Bool) (ds fs : List Char) (ex : Option (Bool × List Char)) : ℚ :=
  (if neg then -1 else 1) * (Nat.ofDigitChars 10 (ds ++ fs) 0 : ℚ) / 10 ^ fs.length * expVal ex

theorem exponent_space {w : Char} {r : List Char} (hw : Text.space w = true) : Text.exponent (w :: r) = some (1, w :: r) := by
  rw [Text.exponent, if_neg]
  rintro (rfl | rfl) <;> exact absurd hw (by decide)

theorem space_digit {w : Char} (hw : Text.space w = true) : w.isDigit = false := by
  simp only [Text.space, decide_eq_true_eq, List.mem_cons, List.not_mem_nil, or_false] at hw
  rcases hw with rfl | rfl | rfl | rfl | rfl | rfl <;> decide

/-- C72: a decimal literal is read as the double next to its value. -/
theorem C72_literal (neg : Bool) (ds fs : List Char) (ex : Option (Bool × List Char)) (w : Char) (r : List Char)
    (hd : ds ≠ []) (hds : ∀ c ∈ ds, c.isDigit = true) (hfs : ∀ c ∈ fs, c.isDigit = true)
    (hex : ∀ m es, ex = some (m, es) → es ≠ [] ∧ ∀ c ∈ es, c.isDigit = true) (hw : Text.White w) :
    Text.float (decLit neg ds fs ex ++ w :: r) = some (rnd (decVal neg ds fs ex), w :: r) := by
  replace hw : Text.space w = true := (Text.white_iff w).mpr hw
  obtain ⟨c, cs, rfl⟩ := List.exists_cons_of_ne_nil hd
  have hc : c.isDigit = true := hds c (List.mem_cons_self ..)
  -- what follows the digits
  have hE : ∃ t x, expLit ex ++ w :: r = t ∧ Text.exponent t = some (x, w :: r) ∧ x = expVal ex ∧
      ∃ k ks, t = k :: ks ∧ k.isDigit = false ∧ k ≠ '.' ∧ k ≠ 'x' ∧ k ≠ 'X' := by
    cases ex with
    | none =>
      refine ⟨w :: r, 1, rfl, exponent_space hw, rfl, w, r, rfl, space_digit hw, ?_, ?_, ?_⟩ <;>
      · rintro rfl
        exact absurd hw (by decide)
    | some p =>
      obtain ⟨m, es⟩ := p
      obtain ⟨h1, h2⟩ := hex m es rfl
      refine ⟨_, _, rfl, ?_, rfl, 'e', _, rfl, by decide, by decide, by decide, by decide⟩
      have hds := Text.digits_append (cs := r) h2 (space_digit hw)
      have hsg : Text.sign (((if m then ['-'] else ['+']) ++ es) ++ w :: r) = (m, es ++ w :: r) := by
        cases m <;> rfl
      change Text.exponent ('e' :: (((if m then ['-'] else ['+']) ++ es) ++ w :: r)) = _
      rw [Text.exponent, if_pos (Or.inl rfl), hsg]
      simp only [hds]
      rw [if_neg h1]
      cases m <;> simp [Text.pow10, Text.ofDigits, expVal]
  obtain ⟨t, x, ht, hx, hxv, k, ks, htk, hk, hk1, hk2, hk3⟩ := hE
  have hdec : Text.decimal ((c :: cs) ++ (if fs = [] then [] else '.' :: fs) ++ t) =
      some ((Nat.ofDigitChars 10 ((c :: cs) ++ fs) 0 : ℚ) / 10 ^ fs.length * x, w :: r) := by
    have h1 : Text.digits ((c :: cs) ++ (if fs = [] then [] else '.' :: fs) ++ t) = (c :: cs, (if fs = [] then [] else '.' :: fs) ++ t) := by
      rw [List.append_assoc]
      split
      · rw [htk]; exact Text.digits_append hds hk
      · exact Text.digits_append hds (by decide)
    have h2 : Text.fraction ((if fs = [] then [] else '.' :: fs) ++ t) = (fs, t) := by
      split
      · rename_i hf
        rw [hf, htk, List.nil_append, Text.fraction]
        rintro cs' h
        injection h with h _
        exact hk1 h
      · rw [List.cons_append, Text.fraction, htk]
        exact Text.digits_append hfs hk
    simp only [Text.decimal, h1, h2]
    rw [if_neg (by rintro ⟨h, _⟩; cases h), if_neg, hx]
    · rfl
    · rintro ⟨_, h⟩
      split at h
      · rw [htk] at h
        simp only [List.nil_append, List.head?_cons, Option.some.injEq] at h
        exact h.elim hk2 hk3
      · simp at h
  have hlit : decLit neg (c :: cs) fs ex ++ w :: r = (if neg then ['-'] else []) ++ ((c :: cs) ++ (if fs = [] then [] else '.' :: fs) ++ t) := by
    unfold decLit
    rw [← ht]
    simp only [List.append_assoc]
  rw [hlit]
  cases neg with
  | false =>
    have := Text.float_digit (cs := cs ++ (if fs = [] then [] else '.' :: fs) ++ t) hc
    simp only [List.cons_append] at this hdec ⊢
    simp only [Bool.false_eq_true, if_false, List.nil_append]
    rw [this, hdec, Option.map_some]
    unfold decVal
    rw [← hxv]
    simp
  | true =>
    have := Text.float_minus (cs := cs ++ (if fs = [] then [] else '.' :: fs) ++ t) hc
    simp only [List.cons_append] at this hdec ⊢
    simp only [if_true, List.nil_append, List.cons_append]
    rw [this, hdec, Option.map_some]
    unfold decVal
    rw [← hxv]
    simp [neg_div]

/-! ## writing and reading back -/

/-- C72: an array written to a file is read back entry by entry as `back`; a file that cannot be opened leads to
`fclose(NULL)`. -/
theorem C72_write (b : List Dbl) (n : Nat) (hb : n ≤ b.length) :
    Text.writeFile false b n = .error .null ∧
    ∃ t, Text.writeFile true b n = .ok (.successfulReturn, t) ∧ (∀ c : List Dbl, c.length = n →
        Text.readFile (some t) c n = .ok (.successfulReturn, (b.take n).map Text.back)) := by
  have hl : loop n (fun i t => do let v ← rd b i; .ok (t ++ (Text.fixed v ++ ['\n']))) [] =
      .ok ((b.take n).flatMap fun v => Text.fixed v ++ ['\n']) := by
    have := loop_eq (fun i => (b.take i).flatMap fun v => Text.fixed v ++ ['\n']) n
      (fun i t => do let v ← rd b i; .ok (t ++ (Text.fixed v ++ ['\n']))) [] (by simp) (by
        intro i hi
        have hv : b[i]? = some b[i] := List.getElem?_eq_getElem (by omega)
        rw [rd_some hv, ok_bind, List.take_add_one, hv]
        simp only [Option.toList_some, List.flatMap_append, List.flatMap_cons, List.flatMap_nil, List.append_nil])
    exact this
  refine ⟨rfl, _, by rw [Text.writeFile, if_pos rfl, hl, ok_bind], ?_⟩
  rintro c rfl
  rw [(C72_read ((Text.ftoks_iff Text.float_iff _ _).mpr <| Text.toks_written _) c c.length).1]
  refine C41_full _ c _ ?_ (by simpa using hb)
  rw [List.map_map, List.take_of_length_le (by simp)]
  rfl

/-- C72: the text of a file consists of one line for each number. -/
theorem C72_text (b : List Dbl) (n : Nat) (hb : n ≤ b.length) :
    Text.writeFile true b n = .ok (.successfulReturn, (b.take n).flatMap fun v => Text.fixed v ++ ['\n']) := by
  have := loop_eq (fun i => (b.take i).flatMap fun v => Text.fixed v ++ ['\n']) n
    (fun i t => do let v ← rd b i; .ok (t ++ (Text.fixed v ++ ['\n']))) [] (by simp) (by
      intro i hi
      have hv : b[i]? = some b[i] := List.getElem?_eq_getElem (by omega)
      rw [rd_some hv, ok_bind, List.take_add_one, hv]
      simp only [Option.toList_some, List.flatMap_append, List.flatMap_cons, List.flatMap_nil, List.append_nil])
  rw [Text.writeFile, if_pos rfl, this, ok_bind]

theorem pow33 : pow2 33 = 8589934592 := by rw [pow2_eq]; norm_num

theorem rep33 : Rep 8589934592 ∧ Rep (-8589934592) :=
  ⟨⟨8589934592, 0, by simp [pow2_eq], by norm_num, by norm_num⟩, ⟨-8589934592, 0, by simp [pow2_eq], by norm_num, by norm_num⟩⟩

/-- from 2^33 on doubles are multiples of 2^-19 -/
theorem rep_grid {q : ℚ} (h : Rep q) (hq : 8589934592 ≤ |q|) : ∃ z : Int, q = z * pow2 (-19) := by
  obtain ⟨m, k, hm, hb, hk⟩ := h
  have hk' : k ≤ 19 := by
    by_contra hn
    have h1 : |q| = |(m : ℚ)| * pow2 (-k) := by rw [hm, abs_mul, abs_of_pos (pow2_pos _)]
    have h2 : pow2 (-k) ≤ pow2 (-20) := pow2_le (by omega)
    have h3 : |(m : ℚ)| < 2 ^ 53 := by exact_mod_cast hb
    have h4 : |(m : ℚ)| * pow2 (-k) < 2 ^ 53 * pow2 (-20) :=
      lt_of_lt_of_le (mul_lt_mul_of_pos_right h3 (pow2_pos _)) (mul_le_mul_of_nonneg_left h2 (by norm_num))
    have h5 : (2 : ℚ) ^ 53 * pow2 (-20) = 8589934592 := by rw [pow2_eq]; norm_num
    linarith
  refine ⟨m * 2 ^ (19 - k).toNat, ?_⟩
  rw [hm]
  obtain ⟨j, hj⟩ := Int.eq_ofNat_of_zero_le (show 0 ≤ 19 - k by omega)
  rw [hj, show -k = (j : Int) + -19 by omega, pow2_add, ← mul_assoc, Int.toNat_natCast]
  congr 1
  rw [pow2_eq]
  push_cast
  rfl

theorem round_large {d : ℚ} (h : 8589934592 ≤ |d|) : 8589934592 ≤ |Dbl.round d| := by
  rcases le_abs.mp h with h | h
  · exact (le_round rep33.1 h).trans (le_abs_self _)
  · have := round_le rep33.2 (show d ≤ -8589934592 by linarith)
    exact le_trans (by linarith) (neg_le_abs _)

/-- the multiple of 10^-6 next to `q` -/
def dec6 (q : ℚ) : ℚ := (nearest (q * 1000000) : ℚ) / 1000000

theorem dec6_err (q : ℚ) : |dec6 q - q| ≤ 1 / 2000000 := by
  have := nearest_err (q * 1000000)
  have e : dec6 q - q = ((nearest (q * 1000000) : ℚ) - q * 1000000) / 1000000 := by
    rw [dec6]; field_simp
  rw [e, abs_div, abs_of_pos (by norm_num : (0 : ℚ) < 1000000)]
  rw [div_le_iff₀ (by norm_num)]
  linarith

theorem dec6_int (z : Int) : dec6 z = z := by
  rw [dec6]
  have : (z : ℚ) * 1000000 = ((z * 1000000 : Int) : ℚ) := by push_cast; ring
  rw [this, nearest_int]
  push_cast
  field_simp

theorem round_dec6_large {q : ℚ} (h : Rep q) (hq : 8589934592 ≤ |q|) : Dbl.round (dec6 q) = q := by
  by_cases he : |q| = 8589934592
  · have : ∃ z : Int, q = z := by
      rcases abs_choice q with h' | h' <;> rw [h'] at he
      · exact ⟨8589934592, by rw [he]; norm_num⟩
      · exact ⟨-8589934592, by push_cast; linarith⟩
    obtain ⟨z, rfl⟩ := this
    rw [dec6_int]
    exact round_of_rep h
  · obtain ⟨z, hz⟩ := rep_grid h hq
    have h19 : pow2 (-19) = 1 / 524288 := by rw [pow2_eq]; norm_num
    have herr := dec6_err q
    -- one unit away from the end of the binade
    have hq1 : 8589934592 + 1 / 524288 ≤ |q| := by
      have h1 : |q| = |(z : ℚ)| * (1 / 524288) := by
        conv_lhs => rw [hz]
        rw [h19, abs_mul, abs_of_pos (by norm_num : (0 : ℚ) < 1 / 524288)]
      have h2 : (8589934592 : ℚ) * 524288 < |(z : ℚ)| := by
        have := lt_of_le_of_ne hq (Ne.symm he)
        rw [h1] at this
        linarith
      have h3 : (8589934592 * 524288 : Int) < |z| := by exact_mod_cast h2
      have h4 : (8589934592 * 524288 + 1 : Int) ≤ |z| := h3
      have h5 : (8589934592 * 524288 + 1 : ℚ) ≤ |(z : ℚ)| := by exact_mod_cast h4
      rw [h1]
      linarith
    have hd : 8589934592 ≤ |dec6 q| := by
      have := abs_sub_abs_le_abs_sub q (dec6 q)
      rw [abs_sub_comm] at this
      have : |q| - |dec6 q| ≤ 1 / 2000000 := this.trans herr
      norm_num at this hq1 ⊢
      linarith
    obtain ⟨y, hy⟩ := rep_grid (round_rep (dec6 q)) (round_large hd)
    have h1 := round_nearest (dec6 q) h
    rw [abs_sub_comm q] at h1
    have h2 : |Dbl.round (dec6 q) - q| ≤ 1 / 1000000 := by
      have := abs_sub_le (Dbl.round (dec6 q)) (dec6 q) q
      linarith
    have h3 : |(y : ℚ) - z| < 1 := by
      have e : Dbl.round (dec6 q) - q = ((y : ℚ) - z) * (1 / 524288) := by
        conv_lhs => rw [hy, hz, h19]
        ring
      rw [e, abs_mul, abs_of_pos (by norm_num : (0 : ℚ) < 1 / 524288)] at h2
      norm_num at h2 ⊢
      linarith
    have h4 : |y - z| < 1 := by exact_mod_cast h3
    have h5 : y = z := by
      have := abs_lt.mp h4
      omega
    rw [hy, hz, h5]

/-- a multiple of 10^-6 below 2^33 can be recovered from the double next to it -/
theorem dec6_round {z : Int} (h : |(z : ℚ) / 1000000| < 8589934592) : dec6 (Dbl.round ((z : ℚ) / 1000000)) = (z : ℚ) / 1000000 := by
  have key : |Dbl.round ((z : ℚ) / 1000000) - (z : ℚ) / 1000000| ≤ 1 / 2097152 := by
    by_cases h0 : (z : ℚ) / 1000000 = 0
    · rw [h0, Dbl.round, if_pos rfl]; norm_num
    · refine (round_err _ h0).trans ?_
      rw [half_place]
      have h1 : elog ((z : ℚ) / 1000000) < 33 := elog_lt h0 (by rw [pow33]; exact h)
      have h2 : pow2 (max (elog ((z : ℚ) / 1000000)) (-1022)) ≤ pow2 32 := pow2_le (by omega)
      have h3 := mul_le_mul_of_nonneg_left h2 (pow2_pos (-53)).le
      have h4 : pow2 (-53) * pow2 32 = 1 / 2097152 := by rw [pow2_eq, pow2_eq]; norm_num
      linarith
  have hn : nearest (Dbl.round ((z : ℚ) / 1000000) * 1000000) = z := ?_
  · rw [dec6, hn]
  apply Text.nearest_close
  have e : Dbl.round ((z : ℚ) / 1000000) * 1000000 - z = (Dbl.round ((z : ℚ) / 1000000) - (z : ℚ) / 1000000) * 1000000 := by
    field_simp
  rw [e, abs_mul, abs_of_pos (by norm_num : (0 : ℚ) < 1000000)]
  norm_num at key ⊢
  linarith

theorem round_dec6_fin {q : ℚ} (h : Rep q) (hb : |q| < pow2 1024) : |Dbl.round (dec6 q)| < pow2 1024 := by
  by_cases hq : 8589934592 ≤ |q|
  · rw [round_dec6_large h hq]; exact hb
  · have h1 := round_nearest (dec6 q) h
    rw [abs_sub_comm q] at h1
    have herr := dec6_err q
    have h2 := abs_sub_le (Dbl.round (dec6 q)) (dec6 q) q
    have h3 := abs_sub_abs_le_abs_sub (Dbl.round (dec6 q)) q
    have h4 : pow2 34 ≤ pow2 1024 := pow2_le (by norm_num)
    have h5 : pow2 34 = 17179869184 := by rw [pow2_eq]; norm_num
    norm_num at herr
    linarith

theorem back_num {q : ℚ} {h : Rep q} {hb : |q| < pow2 1024} :
    Text.back (num q h hb) = num (Dbl.round (dec6 q)) (round_rep _) (round_dec6_fin h hb) := by
  change rnd (dec6 q) = _
  rw [rnd, dif_pos (round_dec6_fin h hb)]

theorem num_congr {q r : ℚ} {h : Rep q} {hb : |q| < pow2 1024} {h' : Rep r} {hb' : |r| < pow2 1024} (e : q = r) :
    num q h hb = num r h' hb' := by subst e; rfl

/-- C72: writing a finite number and reading it back changes it by at most 10^-6, and by at most half of that up to rounding. -/
theorem C72_error {x : Dbl} {q : ℚ} (hx : val x = some q) :
    ∃ y, val (Text.back x) = some y ∧ |y - q| ≤ 1 / 1000000 ∧ |y - q| ≤ 1 / 2000000 + (|q| + 1) * 2⁻¹ ^ 53 := by
  cases x with
  | pinf => cases hx
  | ninf => cases hx
  | nan => cases hx
  | num q' h hb =>
    obtain rfl : q' = q := by simpa [val] using hx
    rw [back_num]
    refine ⟨_, rfl, ?_, ?_⟩
    · have h1 := round_nearest (dec6 q') h
      rw [abs_sub_comm q'] at h1
      have herr := dec6_err q'
      have h2 := abs_sub_le (Dbl.round (dec6 q')) (dec6 q') q'
      linarith
    · have h1 : |Dbl.round (dec6 q') - dec6 q'| ≤ pow2 (-53) * (|dec6 q'| + pow2 (-1022)) := round_gen (dec6 q')
      have herr := dec6_err q'
      have h2 := abs_sub_le (Dbl.round (dec6 q')) (dec6 q') q'
      have h3 := abs_sub_abs_le_abs_sub (dec6 q') q'
      have h4 : pow2 (-1022) ≤ pow2 (-1) := pow2_le (by norm_num)
      have h5 : pow2 (-1) = 1 / 2 := by rw [pow2_eq]; norm_num
      have h6 : pow2 (-53) = 2⁻¹ ^ 53 := by rw [pow2_eq]; norm_num
      have h7 : |dec6 q'| + pow2 (-1022) ≤ |q'| + 1 := by norm_num at herr; linarith
      have h8 := mul_le_mul_of_nonneg_left h7 (pow2_pos (-53)).le
      rw [h6] at h8 h1
      linarith

/-- C72: integers, numbers of absolute value at least 2^33, the doubles next to a number with six decimals, infinities and NaN
are not changed; -/
theorem C72_exact (x : Dbl) (hx : ∀ q, val x = some q →
      (∃ z : Int, q = z) ∨ 2 ^ 33 ≤ |q| ∨ ∃ z : Int, q = Dbl.round ((z : ℚ) / 1000000)) : Text.back x = x := by
  cases x with
  | pinf => rfl
  | ninf => rfl
  | nan => rfl
  | num q h hb =>
    rw [back_num]
    apply num_congr
    have large : 8589934592 ≤ |q| → Dbl.round (dec6 q) = q := round_dec6_large h
    rcases hx q rfl with ⟨z, rfl⟩ | hl | ⟨z, rfl⟩
    · rw [dec6_int]; exact round_of_rep h
    · exact large (by norm_num at hl; exact hl)
    · by_cases hz : |(z : ℚ) / 1000000| < 8589934592
      · rw [dec6_round hz]
      · exact large (round_large (not_lt.mp hz))

/-- C72: so a file does not change when it is read and written again. -/
theorem C72_stable (x : Dbl) : Text.back (Text.back x) = Text.back x := by
  apply C72_exact
  intro q hq
  refine .inr (.inr ?_)
  cases x with
  | pinf => cases hq
  | ninf => cases hq
  | nan => cases hq
  | num q' h hb =>
    rw [back_num] at hq
    exact ⟨nearest (q' * 1000000), by simpa [val, dec6] using hq.symm⟩

/-- C72: the order of numbers is kept, so lower bounds stay below upper bounds, -/
theorem C72_mono {x y : Dbl} (h : Dbl.le x y = true) : Dbl.le (Text.back x) (Text.back y) = true := by
  cases x with
  | num q hq hqb =>
    cases y with
    | num r hr hrb =>
      rw [back_num, back_num]
      have h : q ≤ r := by simpa [Dbl.le] using h
      simp only [Dbl.le, decide_eq_true_eq]
      apply round_mono
      rw [dec6, dec6]
      have := Text.nearest_mono (show q * 1000000 ≤ r * 1000000 by linarith)
      have : (nearest (q * 1000000) : ℚ) ≤ nearest (r * 1000000) := by exact_mod_cast this
      linarith
    | pinf => rw [back_num]; rfl
    | ninf => cases h
    | nan => cases h
  | pinf =>
    cases y with
    | num r hr hrb => cases h
    | pinf => rfl
    | ninf => cases h
    | nan => cases h
  | ninf =>
    cases y with
    | num r hr hrb => rw [back_num]; rfl
    | pinf => rfl
    | ninf => rfl
    | nan => cases h
  | nan => cases h

/-- C72 (a defect): but numbers of absolute value up to 5e-7 are read back as zero. -/
theorem C72_small {x : Dbl} {q : ℚ} (hx : val x = some q) : val (Text.back x) = some 0 ↔ |q| ≤ 1 / 2000000 := by
  cases x with
  | pinf => cases hx
  | ninf => cases hx
  | nan => cases hx
  | num q' h hb =>
    obtain rfl : q' = q := by simpa [val] using hx
    rw [back_num]
    have h00 : Dbl.round 0 = 0 := by rw [Dbl.round, if_pos rfl]
    constructor
    · intro hy
      have hy : Dbl.round (dec6 q') = 0 := by simpa [val] using hy
      have hz : dec6 q' = 0 := by
        by_contra hne
        rw [dec6] at hne hy
        have hz : (nearest (q' * 1000000)) ≠ 0 := by
          intro h0
          rw [h0] at hne
          simp at hne
        have hr : |(nearest (q' * 1000000) : ℚ) / 1000000| < 8589934592 := by
          by_contra hn
          have := round_large (not_lt.mp hn)
          rw [hy] at this
          norm_num at this
        have := dec6_round hr
        rw [hy] at this
        have h0 : dec6 0 = 0 := by simpa using dec6_int 0
        rw [h0] at this
        exact hne this.symm
      have := dec6_err q'
      rw [hz] at this
      simpa using this
    · intro hq
      have : nearest (q' * 1000000) = 0 := by
        rcases lt_or_eq_of_le hq with hlt | heq
        · apply Text.nearest_close
          rw [Int.cast_zero, sub_zero, abs_mul, abs_of_pos (by norm_num : (0 : ℚ) < 1000000)]
          linarith
        · rcases abs_choice q' with h' | h' <;> rw [h'] at heq
          · rw [heq]; decide +kernel
          · have : q' = -(1 / 2000000) := by linarith
            rw [this]; decide +kernel
      have hd : dec6 q' = 0 := by rw [dec6, this]; simp
      change some (Dbl.round (dec6 q')) = some 0
      rw [hd, h00]

namespace Ex

/-- C72: lines of the data files of the examples -/
example : Text.Toks Text.Number "-3.33333\n0\n -Inf\n4.44089e-16\n".toList
    [.num (rnd (-333333 / 100000)), .num (rnd 0), .num .ninf, .num (rnd (444089 / 10 ^ 21))] := by
  rw [Text.ftoks_iff Text.float_iff]
  refine .num (u := "\n0\n -Inf\n4.44089e-16\n".toList) (by decide) ?_ (.num (u := "\n -Inf\n4.44089e-16\n".toList) (by decide) ?_
    (.num (u := "\n4.44089e-16\n".toList) (by decide) ?_ (.num (u := "\n".toList) (by decide) ?_ (.eof (by decide)))))
  · exact C72_literal true ['3'] ['3', '3', '3', '3', '3'] none '\n' "0\n -Inf\n4.44089e-16\n".toList (by decide) (by decide) (by decide) (by simp)
      (by decide) |>.trans (by congr 3; decide +kernel)
  · exact C72_literal false ['0'] [] none '\n' " -Inf\n4.44089e-16\n".toList (by decide) (by decide) (by decide) (by simp)
      (by decide) |>.trans (by congr 3; decide +kernel)
  · rfl
  · exact C72_literal false ['4'] ['4', '4', '0', '8', '9'] (some (true, ['1', '6'])) '\n' [] (by decide) (by decide) (by decide)
      (by rintro _ _ ⟨⟩; decide) (by decide) |>.trans (by congr 3; decide +kernel)

/-- C72: a tab, an exponent in capitals, no digit before the point; then something that is no number -/
example : Text.Toks Text.Number "\t+.5E+1\r\ne5\n".toList [.num (rnd 5), .bad] := by
  refine .num (w := ['\t']) (c := '+') (t := ".5E+1\r\ne5\n".toList) (u := "\r\ne5\n".toList) (by decide) (by decide) ?_
    (.bad (w := ['\r', '\n']) (c := 'e') (t := "5\n".toList) (by decide) (by decide) fun v u h => ?_)
  · refine ⟨false, ".5E+1\r\ne5\n".toList, by unfold Text.Sgn; decide, .inl ⟨5, ?_, rfl⟩⟩
    refine ⟨[], ".5E+1\r\ne5\n".toList, ['5'], "E+1\r\ne5\n".toList, 10, by unfold Text.Digs; decide,
      .inl ⟨"5E+1\r\ne5\n".toList, rfl, by unfold Text.Digs; decide⟩, by decide, by decide, .inl ?_, ?_⟩
    · exact ⟨'E', "+1\r\ne5\n".toList, false, "1\r\ne5\n".toList, ['1'], rfl, .inr rfl, by unfold Text.Sgn; decide,
        by unfold Text.Digs; decide, by decide, by decide +kernel⟩
    · decide +kernel
  · rw [← Text.float_iff] at h
    cases h

/-- C72: what is written -/
example : (Text.writeFile true [rnd (-3.33333), rnd 1e22, .pinf, rnd 5e-12, rnd (2 / 3)] 5).map (fun r => String.ofList r.2) =
    .ok "-3.333330\n10000000000000000000000.000000\ninf\n0.000000\n0.666667\n" := by decide +kernel

/-- C72: two thirds are changed, and the weight of the example `OptimizeOnCircle` is lost -/
example : Dbl.val (Text.back (rnd (2 / 3))) ≠ Dbl.val (rnd (2 / 3)) ∧ Dbl.val (Text.back (rnd 5e-12)) = some 0 ∧
    Dbl.val (rnd 5e-12) ≠ some 0 := by
  decide +kernel

end Ex
end LCQ
