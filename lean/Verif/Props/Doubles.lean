import Verif.Props.Options
import Verif.Props.Perturb
import Verif.Props.Penalty
import Verif.Props.Rounding

/-!
# C58, C59: perturbation and penalty parameter in IEEE doubles

The arithmetic is `Dbl`, see `Verif/Spec/Binary64.lean`.
-/

namespace LCQ
open Scalar

namespace Dbl

/-! ## C58: perturbation -/

/-- the double `EPS` -/
def epsVal : ℚ := round (mkRat 2221 (10 ^ 19))

theorem eps_bounds : pow2 (-52) < epsVal ∧ epsVal < pow2 (-51) := by decide +kernel

theorem eps_terms : val (ofInt (-1) *. eps) = some (-epsVal) ∧ val (ofInt 0 *. eps) = some 0 ∧
    val (ofInt 1 *. eps) = some epsVal := by decide +kernel

theorem eq_num {a : Dbl} {q : ℚ} (h : val a = some q) : ∃ hr hb, a = num q hr hb := by
  cases a <;> simp only [val, reduceCtorEq, Option.some.injEq] at h
  subst h
  exact ⟨_, _, rfl⟩

theorem num_inj {q r : ℚ} {h hb h' hb'} (e : q = r) : num q h hb = num r h' hb' := by subst e; rfl

theorem val_inj {a b : Dbl} {q : ℚ} (h : val a = some q) (h' : val b = some q) : a = b := by
  obtain ⟨_, _, rfl⟩ := eq_num h
  obtain ⟨_, _, rfl⟩ := eq_num h'
  rfl

/-- a change by less than half a unit in the last place is rounded away -/
theorem round_absorb {x d : ℚ} (hx : Rep x) (h4 : 4 < |x|) (hd : |d| < pow2 (-51)) : round (x + d) = x := by
  have hx0 : x ≠ 0 := by rintro rfl; simp at h4; linarith
  have p2 : pow2 2 = 4 := by simp [pow2_eq]; norm_num
  have he : 2 ≤ elog x := le_elog hx0 (by rw [p2]; exact h4.le)
  obtain ⟨z, hz, z1, z2⟩ := hx.normal hx0 (by omega)
  have hax : |x| = |(z : ℚ)| * pow2 (elog x - 52) := by
    conv_lhs => rw [hz]
    rw [abs_mul, abs_of_pos (pow2_pos _)]
  -- lower bound
  have hlow : 4 + pow2 (-50) ≤ |x| := by
    rcases eq_or_lt_of_le he with h | h
    · rw [← h] at hax
      have h50 : pow2 (2 - 52) = pow2 (-50) := rfl
      have e4 : (4 : ℚ) = 2 ^ 52 * pow2 (-50) := by rw [pow2_eq]; norm_num
      rw [h50] at hax
      have : (2 : ℚ) ^ 52 < |(z : ℚ)| := by
        rw [hax, e4] at h4
        exact lt_of_mul_lt_mul_right h4 (pow2_pos _).le
      have : 2 ^ 52 < |z| := by exact_mod_cast this
      have : 2 ^ 52 + 1 ≤ |z| := by omega
      have h' : (2 : ℚ) ^ 52 + 1 ≤ |(z : ℚ)| := by exact_mod_cast this
      rw [hax, e4]
      have := mul_le_mul_of_nonneg_right h' (pow2_pos (-50)).le
      linarith
    · have h8 : pow2 3 ≤ |x| := (pow2_le (by omega)).trans (elog_spec hx0).1
      have : pow2 3 = 8 := by simp [pow2_eq]; norm_num
      have : pow2 (-50) ≤ pow2 0 := pow2_le (by omega)
      have : pow2 0 = 1 := by simp [pow2_eq]
      linarith
  have h51 : pow2 (-50) = 2 * pow2 (-51) := by rw [← pow2_one, ← pow2_add]; rfl
  have hq4 : 4 ≤ |x + d| := by
    have := abs_sub_abs_le_abs_sub x (-d)
    rw [sub_neg_eq_add, abs_neg] at this
    have := pow2_pos (-51)
    linarith
  have hq0 : x + d ≠ 0 := by intro h; rw [h] at hq4; simp at hq4; linarith
  have he1 : 2 ≤ elog (x + d) := le_elog hq0 (by rw [p2]; exact hq4)
  have he2 : elog (x + d) ≤ elog x := by
    have : elog (x + d) < elog x + 1 := by
      apply elog_lt hq0
      have h1 := abs_add_le x d
      have h2 : |x| ≤ pow2 (elog x + 1) - pow2 (elog x - 52) := by
        have : (|(z : ℚ)|) ≤ 2 ^ 53 - 1 := by
          have : |z| ≤ 2 ^ 53 - 1 := by omega
          exact_mod_cast this
        have h3 := mul_le_mul_of_nonneg_right this (pow2_pos (elog x - 52)).le
        have h53 : (2 : ℚ) ^ 53 = pow2 53 := by simp [pow2_eq]
        rw [← hax, sub_mul, h53, ← pow2_add, one_mul, show 53 + (elog x - 52) = elog x + 1 by ring] at h3
        exact h3
      have h4 : pow2 (-50) ≤ pow2 (elog x - 52) := pow2_le (by omega)
      have := pow2_pos (-51)
      linarith
    omega
  have hp : place (x + d) = 52 - elog (x + d) := by unfold place; omega
  generalize elog (x + d) = e at *
  have hint : x = ((z * 2 ^ (elog x - e).toNat : Int) : ℚ) * pow2 (-place (x + d)) := by
    have h0 : 0 ≤ elog x - e := by omega
    rw [hp]
    generalize elog x = f at *
    rw [hz, show f - 52 = (f - e) + -(52 - e) by ring, pow2_add, ← mul_assoc]
    congr 1
    rw [pow2, if_pos h0]
    push_cast; rfl
  generalize hw : z * 2 ^ (elog x - e).toNat = w at hint
  have hn : nearest ((x + d) * pow2 (place (x + d))) = w := by
    have e1 : (x + d) * pow2 (place (x + d)) - w = d * pow2 (place (x + d)) := by
      rw [add_mul]
      have : x * pow2 (place (x + d)) = w := by
        generalize place (x + d) = p at hint
        rw [hint, mul_assoc, mul_comm (pow2 (-p)), pow2_neg, mul_one]
      rw [this]; ring
    have e2 : |(x + d) * pow2 (place (x + d)) - w| < 1 / 2 := by
      rw [e1, abs_mul, abs_of_pos (pow2_pos _), hp]
      have h1 := mul_lt_mul_of_pos_right hd (pow2_pos (52 - e))
      have h2 : pow2 (-51) * pow2 (52 - e) ≤ pow2 (-1) := by rw [← pow2_add]; exact pow2_le (by omega)
      have h3 : pow2 (-1) = 1 / 2 := by simp [pow2_eq]
      linarith
    have e3 := nearest_err ((x + d) * pow2 (place (x + d)))
    generalize (x + d) * pow2 (place (x + d)) = y at *
    have e4 : |(nearest y : ℚ) - w| < 1 := by
      have : (nearest y : ℚ) - w = (nearest y - y) + (y - w) := by ring
      rw [this]
      have := abs_add_le ((nearest y : ℚ) - y) (y - w)
      linarith
    have e5 : |nearest y - w| < 1 := by exact_mod_cast e4
    have := abs_lt.mp e5
    omega
  rw [round, if_neg hq0, hn]
  exact hint.symm

/-- a change by `EPS` is visible below 4 -/
theorem round_visible {x d : ℚ} (hx : Rep x) (h4 : |x| < 4) (hd : |d| = epsVal) : round (x + d) ≠ x := by
  intro h
  obtain ⟨b1, b2⟩ := eps_bounds
  have hd0 : 0 < |d| := by have := pow2_pos (-52); linarith
  by_cases hq0 : x + d = 0
  · rw [hq0] at h
    have : x = 0 := by rw [← h]; simp [round]
    rw [this, zero_add] at hq0
    rw [hq0] at hd0
    simp at hd0
  have p2 : pow2 2 = 4 := by simp [pow2_eq]; norm_num
  -- the next double below 4
  have hlow : |x| ≤ 4 - pow2 (-51) := by
    by_cases hx1 : |x| < 2
    · have : pow2 (-51) ≤ pow2 0 := pow2_le (by omega)
      have : pow2 0 = 1 := by simp [pow2_eq]
      linarith
    · have hx0 : x ≠ 0 := by rintro rfl; simp at hx1
      have he : elog x = 1 := by
        have h1 : 1 ≤ elog x := le_elog hx0 (by rw [pow2_one]; exact not_lt.mp hx1)
        have h2 : elog x < 2 := elog_lt hx0 (by rw [p2]; exact h4)
        omega
      obtain ⟨z, hz, z1, z2⟩ := hx.normal hx0 (by omega)
      rw [he] at hz
      have hax : |x| = |(z : ℚ)| * pow2 (-51) := by
        conv_lhs => rw [hz]
        rw [abs_mul, abs_of_pos (pow2_pos _)]; rfl
      have : (|(z : ℚ)|) ≤ 2 ^ 53 - 1 := by
        have : |z| ≤ 2 ^ 53 - 1 := by omega
        exact_mod_cast this
      have h3 := mul_le_mul_of_nonneg_right this (pow2_pos (-51)).le
      have e4 : (2 : ℚ) ^ 53 * pow2 (-51) = 4 := by rw [pow2_eq]; norm_num
      rw [← hax, sub_mul, e4, one_mul] at h3
      exact h3
  have hq4 : |x + d| < 4 := by
    have := abs_add_le x d
    linarith
  have he : elog (x + d) ≤ 1 := by
    have := elog_lt hq0 (by rw [p2]; exact hq4)
    omega
  have herr := round_err (x + d) hq0
  rw [h, half_place, show x - (x + d) = -d by ring, abs_neg, hd, ← pow2_add] at herr
  have : pow2 (-53 + max (elog (x + d)) (-1022)) ≤ pow2 (-52) := pow2_le (by omega)
  linarith

theorem rnd_of_round {q x : ℚ} (hx : Rep x) (hb : |x| < pow2 1024) (h : round q = x) : rnd q = num x hx hb := by
  subst h
  rw [rnd, dif_pos hb]

/-- C58: adding `EPS` or `-EPS` does not change a double of absolute value greater than 4, in particular no infinity, and
changes every finite double of smaller absolute value. -/
theorem nudge (x : Dbl) {c : Int} (hc : c = -1 ∨ c = 0 ∨ c = 1) :
    (∀ q, val x = some q → 4 < |q| → x +. ofInt c *. eps = x) ∧ (val x = none → x +. ofInt c *. eps = x) ∧
    (∀ q, val x = some q → |q| < 4 → c ≠ 0 → x +. ofInt c *. eps ≠ x) := by
  obtain ⟨t1, t2, t3⟩ := eps_terms
  obtain ⟨d, hd, hv⟩ : ∃ d, val (ofInt c *. eps) = some d ∧ (c ≠ 0 → |d| = epsVal) ∧ |d| ≤ epsVal := by
    have h0 : 0 < epsVal := (pow2_pos _).trans eps_bounds.1
    rcases hc with rfl | rfl | rfl
    · exact ⟨_, t1, fun _ => by rw [abs_neg, abs_of_pos h0], by rw [abs_neg, abs_of_pos h0]⟩
    · exact ⟨_, t2, fun h => absurd rfl h, by rw [abs_zero]; exact h0.le⟩
    · exact ⟨_, t3, fun _ => abs_of_pos h0, (abs_of_pos h0).le⟩
  obtain ⟨dr, db, hn⟩ := eq_num hd
  rw [hn]
  refine ⟨?_, ?_, ?_⟩
  · intro q hq h4
    obtain ⟨hr, hb, rfl⟩ := eq_num hq
    exact rnd_of_round hr hb (round_absorb hr h4 (lt_of_le_of_lt hv.2 eps_bounds.2))
  · intro hx
    cases x <;> simp only [val, reduceCtorEq] at hx <;> rfl
  · intro q hq h4 hc0 he
    obtain ⟨hr, hb, rfl⟩ := eq_num hq
    change rnd (q + d) = num q hr hb at he
    have : val (rnd (q + d)) = some q := by rw [he]; rfl
    exact round_visible hr h4 (hv.1 hc0) (val_rnd this).symm

end Dbl

section
variable {n : Dims} {d : Data Dbl} {s : St Dbl} {e : Env Dbl}

/-- C58: the perturbation of the step leaves the entries of absolute value greater than 4 unchanged, whatever the
random numbers are. -/
theorem C58_unchanged (hd : d.dims = some n) {x : List Dbl} (hx : s.xk = some x) (lx : x.length = n.nV) :
    ∃ y, perturbStep e d s = .ok { s with
      xk := some y
      rnd := s.rnd + n.nV } ∧ y.length = x.length ∧
      ∀ (i : Nat) (a : Dbl), x[i]? = some a → (∀ q, Dbl.val a = some q → 4 < |q|) → y[i]? = some a := by
  obtain ⟨y, h1, h2, h3⟩ := C37_step (e := e) hd hx lx
  refine ⟨y, h1, h2, fun i a hi ha => ?_⟩
  have hlt : i < x.length := by
    by_contra h
    rw [List.getElem?_eq_none (not_lt.mp h)] at hi
    cases hi
  obtain ⟨c, hc, hy⟩ := h3 i hlt
  rw [hy, hi]
  obtain ⟨n1, n2, _⟩ := Dbl.nudge a hc
  cases hv : Dbl.val a with
  | none => simp [n2 hv]
  | some q => simp [n1 q hv (ha q hv)]

/-- C58: if all entries are greater than 4 in absolute value, the perturbation has no effect on the iterate. -/
theorem C58_none (hd : d.dims = some n) {x : List Dbl} (hx : s.xk = some x) (lx : x.length = n.nV)
    (h4 : ∀ a ∈ x, ∀ q, Dbl.val a = some q → 4 < |q|) :
    perturbStep e d s = .ok { s with rnd := s.rnd + n.nV } := by
  obtain ⟨y, h1, h2, h3⟩ := C58_unchanged (e := e) hd hx lx
  have : y = x := by
    apply List.ext_getElem? 
    intro i
    cases hi : x[i]? with
    | none => rw [List.getElem?_eq_none_iff] at hi ⊢; omega
    | some a => exact h3 i a hi (h4 a (List.mem_of_getElem? hi))
  rw [h1, this, ← hx]

/-- C58: an entry of absolute value less than 4 is changed if and only if its random number is not 1 modulo 3. -/
theorem C58_changed (hd : d.dims = some n) {x : List Dbl} (hx : s.xk = some x) (lx : x.length = n.nV) :
    ∃ y, perturbStep e d s = .ok { s with
      xk := some y
      rnd := s.rnd + n.nV } ∧ y.length = x.length ∧
      ∀ (i : Nat) (a : Dbl) (q : ℚ), x[i]? = some a → Dbl.val a = some q → |q| < 4 →
        (y[i]? = some a ↔ e.rnd (s.rnd + i) % 3 = 1) := by
  have hl : perturbLoop e s.rnd n.nV x = _ := perturbLoop_eq lx
  refine ⟨tab n.nV fun i => gt x i +. ofInt (((e.rnd (s.rnd + i) % 3 : Nat) : Int) - 1) *. eps, ?_, ?_, ?_⟩
  · simp only [perturbStep, hd, hx, initd_some, deref_some, ok_bind, hl]
  · simp [lx]
  · intro i a q hi hq h4
    have hlt : i < n.nV := by
      by_contra h
      rw [List.getElem?_eq_none (by omega)] at hi
      cases hi
    have hg : gt x i = a := by simp [gt, List.getD_eq_getElem?_getD, hi]
    have hc : (((e.rnd (s.rnd + i) % 3 : Nat) : Int) - 1 = -1 ∨ ((e.rnd (s.rnd + i) % 3 : Nat) : Int) - 1 = 0 ∨
        ((e.rnd (s.rnd + i) % 3 : Nat) : Int) - 1 = 1) := by omega
    obtain ⟨_, _, n3⟩ := Dbl.nudge a hc
    have n3 := n3 q hq h4
    simp only [tab, List.getElem?_map, List.getElem?_range hlt, Option.map_some, Option.some.injEq, hg]
    constructor
    · intro h
      by_contra hne
      exact n3 (by omega) h
    · intro h
      rw [h]
      obtain ⟨_, t2, _⟩ := Dbl.eps_terms
      obtain ⟨hr, hb, rfl⟩ := Dbl.eq_num hq
      obtain ⟨_, _, e0⟩ := Dbl.eq_num t2
      show _ +. ofInt 0 *. eps = _
      rw [e0]
      exact Dbl.rnd_of_round hr hb (by rw [add_zero]; exact Dbl.round_of_rep hr)

/-- a vector of numbers below and above 4 -/
example : (match perturbLoop ExD.env 2 4 [one, ofInt 3, ofInt 5, ofInt (-1000)] with
    | .ok y => y.map Dbl.val
    | .error _ => []) = [some (1 + 1 / 2 ^ 52), some (3 - 1 / 2 ^ 51), some 5, some (-1000)] := by decide +kernel

end

/-! ## C59: penalty parameter -/

namespace Dbl

theorem lt_of_le_false {a b : Dbl} {y : ℚ} (h : (a <=. b) = false) (hb : val b = some y) (ha : a ≠ nan) :
    a = pinf ∨ ∃ x hr hb', a = num x hr hb' ∧ y < x := by
  obtain ⟨_, _, rfl⟩ := eq_num hb
  cases a with
  | num x hr hx =>
    refine Or.inr ⟨x, hr, hx, rfl, ?_⟩
    change decide (x ≤ y) = false at h
    simpa using h
  | pinf => exact Or.inl rfl
  | ninf => cases h
  | nan => exact absurd rfl ha

/-- the next double -/
theorem Rep.succ {r : ℚ} (h : Rep r) (h0 : pow2 (-1022) ≤ r) :
    ∃ s, Rep s ∧ r * (1 + pow2 (-53)) ≤ s ∧ s ≤ r * (1 + pow2 (-52)) := by
  have hp : 0 < r := lt_of_lt_of_le (pow2_pos _) h0
  have he : -1022 ≤ elog r := le_elog hp.ne' (by rwa [abs_of_pos hp])
  obtain ⟨z, hz, z1, z2⟩ := h.normal hp.ne' he
  obtain ⟨b1, b2⟩ := elog_spec hp.ne'
  rw [abs_of_pos hp] at b1 b2
  have hz0 : 0 < z := by
    by_contra hn
    have : (z : ℚ) ≤ 0 := by exact_mod_cast not_lt.mp hn
    have := mul_nonpos_of_nonpos_of_nonneg this (pow2_pos (elog r - 52)).le
    rw [← hz] at this
    linarith
  rw [abs_of_pos hz0] at z1 z2
  refine ⟨((z + 1 : Int) : ℚ) * pow2 (-(52 - elog r)), rep_of_le (by rw [abs_of_pos (by omega)]; omega) (by omega), ?_, ?_⟩
  · rw [show -(52 - elog r) = elog r - 52 by ring]
    push_cast
    rw [add_mul, ← hz, one_mul, mul_add, mul_one]
    have : pow2 (elog r - 52) = pow2 (elog r + 1) * pow2 (-53) := by rw [← pow2_add]; congr 1; ring
    rw [this]
    have := mul_le_mul_of_nonneg_right b2.le (pow2_pos (-53)).le
    linarith
  · rw [show -(52 - elog r) = elog r - 52 by ring]
    push_cast
    rw [add_mul, ← hz, one_mul, mul_add, mul_one]
    have : pow2 (elog r - 52) = pow2 (elog r) * pow2 (-52) := by rw [← pow2_add]; congr 1
    rw [this]
    have := mul_le_mul_of_nonneg_right b1 (pow2_pos (-52)).le
    linarith

/-- a double greater than 1 is at least `1 + 2^-52` -/
theorem Rep.one_lt {f : ℚ} (h : Rep f) (h1 : 1 < f) : 1 + pow2 (-52) ≤ f := by
  have h0 : f ≠ 0 := by linarith
  have p0 : pow2 0 = 1 := by simp [pow2_eq]
  have he : 0 ≤ elog f := le_elog h0 (by rw [p0, abs_of_pos (by linarith)]; exact h1.le)
  rcases eq_or_lt_of_le he with h' | h'
  · obtain ⟨z, hz, _, _⟩ := h.normal h0 (by omega)
    rw [← h'] at hz
    have e1 : (1 : ℚ) = (2 ^ 52 : Int) * pow2 (0 - 52) := by rw [pow2_eq]; norm_num
    have : ((2 ^ 52 : Int) : ℚ) < z := by
      rw [hz, e1] at h1
      exact lt_of_mul_lt_mul_right h1 (pow2_pos _).le
    have : (2 ^ 52 : Int) + 1 ≤ z := by have : (2 ^ 52 : Int) < z := by exact_mod_cast this
                                        omega
    have : (((2 ^ 52 : Int) + 1 : Int) : ℚ) ≤ z := by exact_mod_cast this
    have := mul_le_mul_of_nonneg_right this (pow2_pos (0 - 52)).le
    rw [← hz, Int.cast_add, add_mul, ← e1, Int.cast_one, one_mul] at this
    exact this
  · have := (pow2_le (show 1 ≤ elog f by omega)).trans (elog_spec h0).1
    rw [abs_of_pos (by linarith), pow2_one] at this
    have h52 : pow2 (-52) ≤ pow2 0 := pow2_le (by omega)
    linarith

/-- product of two positive doubles -/
theorem mul_ge {r f s : ℚ} {hr hb hf hb'} (h0 : 0 < r) (hf0 : 0 < f) (hs : Rep s) (h : s ≤ r * f) :
    num r hr hb *. num f hf hb' = pinf ∨ ∃ t ht hb'', num r hr hb *. num f hf hb' = num t ht hb'' ∧ s ≤ t := by
  have hle := le_round hs h
  show rnd (r * f) = pinf ∨ ∃ t ht hb'', rnd (r * f) = num t ht hb'' ∧ s ≤ t
  unfold rnd
  split
  case isTrue hlt => exact Or.inr ⟨round (r * f), round_rep _, hlt, rfl, hle⟩
  case isFalse hlt =>
    rw [if_pos (mul_pos h0 hf0)]
    exact Or.inl rfl

theorem Rep.two_mul {r : ℚ} (h : Rep r) : Rep (2 * r) := by
  obtain ⟨m, k, hm, hb, hk⟩ := h
  refine ⟨m, k - 1, ?_, hb, by omega⟩
  rw [hm, show -(k - 1) = 1 + -k by ring, pow2_add, pow2_one]
  ring

theorem zero_tol : val zeroTol = some (round (mkRat 1 (10 ^ 25))) ∧ pow2 (-1022) ≤ round (mkRat 1 (10 ^ 25)) := by
  decide +kernel

theorem pinf_mul {f : Dbl} (h : f = pinf ∨ ∃ x hr hb, f = num x hr hb ∧ 1 < x) : (pinf : Dbl) *. f = pinf := by
  rcases h with rfl | ⟨x, hr, hb, rfl, hx⟩
  · rfl
  · show signInf x = pinf
    rw [signInf, if_pos (by linarith)]

/-- one penalty update -/
theorem update {r : ℚ} {hr hb} {f : Dbl} (h0 : pow2 (-1022) ≤ r) (h : f = pinf ∨ ∃ x hr hb, f = num x hr hb ∧ 1 < x) :
    num r hr hb *. f = pinf ∨ ∃ t ht hb'', num r hr hb *. f = num t ht hb'' ∧ r * (1 + pow2 (-53)) ≤ t ∧
      ((two <=. f) = true → 2 * r ≤ t) := by
  have hp : 0 < r := lt_of_lt_of_le (pow2_pos _) h0
  rcases h with rfl | ⟨x, hr', hb', rfl, hx⟩
  · left
    show signInf r = pinf
    rw [signInf, if_pos hp]
  · obtain ⟨s, hs, hs1, hs2⟩ := hr.succ h0
    have hx' := hr'.one_lt hx
    have hle : s ≤ r * x := hs2.trans (mul_le_mul_of_nonneg_left hx' hp.le)
    rcases mul_ge (hr := hr) (hb := hb) (hf := hr') (hb' := hb') hp (by linarith) hs hle with h1 | ⟨t, ht, hb'', h1, h2⟩
    · exact Or.inl h1
    · refine Or.inr ⟨t, ht, hb'', h1, hs1.trans h2, fun h2f => ?_⟩
      obtain ⟨_, _, e2⟩ := two_eq
      rw [e2] at h2f
      have h2x : (2 : ℚ) ≤ x := of_decide_eq_true h2f
      rcases mul_ge (hr := hr) (hb := hb) (hf := hr') (hb' := hb') hp (by linarith) hr.two_mul
        (by rw [mul_comm]; exact mul_le_mul_of_nonneg_left h2x hp.le) with h3 | ⟨t', _, _, h3, h4⟩
      · rw [h3] at h1; cases h1
      · rw [h1] at h3
        have h5 : val (num t ht hb'') = some t' := by rw [h3]; rfl
        have h5 : t = t' := Option.some.inj h5
        rw [h5]; exact h4

end Dbl

/-- the conditions which the setters check, and no `NaN` -/
structure PenaltyOK (o : Options Dbl) : Prop where
  rho0 : (o.rho0 <=. zeroTol) = false
  factor : (o.factor <=. one) = false
  noNan : o.rho0 ≠ .nan ∧ o.factor ≠ .nan

theorem PenaltyOK.f {o : Options Dbl} (h : PenaltyOK o) :
    o.factor = .pinf ∨ ∃ x hr hb, o.factor = .num x hr hb ∧ 1 < x :=
  Dbl.lt_of_le_false h.factor Dbl.val_one h.noNan.2

theorem default_ok0 : ((Options.default 0 0 : Options Dbl).statTol <=. eps) = false ∧
    ((Options.default 0 0 : Options Dbl).complTol <=. eps) = false ∧
    ((Options.default 0 0 : Options Dbl).rho0 <=. zeroTol) = false ∧
    ((Options.default 0 0 : Options Dbl).factor <=. one) = false ∧
    ((Options.default 0 0 : Options Dbl).maxRho <=. zero) = false ∧
    ((Options.default 0 0 : Options Dbl).eta <=. eps) = false ∧
    (one <=. (Options.default 0 0 : Options Dbl).eta) = false := by decide +kernel

theorem default_ok (qd sd : Nat) : (Options.default qd sd : Options Dbl).NotRejected :=
  have h := default_ok0
  ⟨h.1, h.2.1, h.2.2.1, h.2.2.2.1, show (1 : Int) ≤ 1000 by omega, h.2.2.2.2.1, h.2.2.2.2.2⟩

/-- C59: the hypothesis on the options holds after every sequence of setter calls, unless `NaN` was accepted. -/
theorem C59_setters (qd sd : Nat) (cs : List (Options.Call Dbl))
    (h1 : ((Options.default qd sd : Options Dbl).calls cs).rho0 ≠ .nan)
    (h2 : ((Options.default qd sd : Options Dbl).calls cs).factor ≠ .nan) :
    PenaltyOK ((Options.default qd sd : Options Dbl).calls cs) :=
  have h := C11_any_arithmetic _ (default_ok qd sd) cs
  ⟨h.rho0, h.factor, h1, h2⟩

/-- values of the penalty parameter -/
theorem penalty_dbl {o : Options Dbl} (h : PenaltyOK o) (k : Nat) : penalty o k = .pinf ∨
    ∃ r hr hb, penalty o k = .num r hr hb ∧ Dbl.pow2 (-1022) ≤ r ∧
      ∀ a, Dbl.val o.rho0 = some a → a * (1 + Dbl.pow2 (-53)) ^ k ≤ r ∧ ((two <=. o.factor) = true → a * 2 ^ k ≤ r) := by
  induction k with
  | zero =>
    obtain ⟨z1, z2⟩ := Dbl.zero_tol
    rcases Dbl.lt_of_le_false h.rho0 z1 h.noNan.1 with h1 | ⟨x, hr, hb, h1, h2⟩
    · exact Or.inl h1
    · refine Or.inr ⟨x, hr, hb, h1, by linarith, fun a ha => ?_⟩
      rw [h1] at ha
      injection ha with ha
      subst ha
      simp
  | succ k ih =>
    have hp : penalty o (k + 1) = penalty o k *. o.factor := rfl
    rw [hp]
    rcases ih with h1 | ⟨r, hr, hb, h1, h2, h3⟩
    · left; rw [h1]; exact Dbl.pinf_mul h.f
    · rw [h1]
      rcases Dbl.update (hr := hr) (hb := hb) h2 h.f with h4 | ⟨t, ht, hb', h4, h5, h6⟩
      · exact Or.inl h4
      · refine Or.inr ⟨t, ht, hb', h4, ?_, fun a ha => ⟨?_, fun hf => ?_⟩⟩
        · have hp : 0 < r := lt_of_lt_of_le (Dbl.pow2_pos _) h2
          have := mul_pos hp (Dbl.pow2_pos (-53))
          linarith
        · have h7 := (h3 a ha).1
          rw [pow_succ, ← mul_assoc]
          exact (mul_le_mul_of_nonneg_right h7 (by have := Dbl.pow2_pos (-53); linarith)).trans h5
        · have h7 := (h3 a ha).2 hf
          have := h6 hf
          rw [pow_succ]; linarith

section
variable {e : Env Dbl} {o : Obj Dbl} {d : Data Dbl} {s s' : St Dbl}

/-- C59: with options accepted by the setters the penalty parameter is a positive number at least
`rho0 * (1 + 2^-53)^k` after `k` updates, `rho0 * 2^k` if the factor is at least 2, or it is `+inf`. -/
theorem C59_value (h : DuringRun e o d s) (ho : PenaltyOK o.d.opts) :
    ∃ (k : Nat) (rho : Dbl), s.outer = some (k : Int) ∧ s.rho = some rho ∧ s.stats.rhoOpt = rho ∧
      (rho = .pinf ∨ ∃ r, Dbl.val rho = some r ∧ 0 < r ∧ ∀ a, Dbl.val o.d.opts.rho0 = some a →
        a * (1 + Dbl.pow2 (-53)) ^ k ≤ r ∧ ((two <=. o.d.opts.factor) = true → a * 2 ^ k ≤ r)) := by
  obtain ⟨k, h1, _, h3, h4⟩ := C22_during h
  refine ⟨k, _, h1, h3, h4 fun j _ => ?_, ?_⟩
  · obtain ⟨_, _, ez⟩ := Dbl.eq_num Dbl.val_zero
    rcases penalty_dbl ho j with h | ⟨r, hr, hb, h, h0, _⟩
    · rw [h, ez]; rfl
    · rw [h, ez]
      have := Dbl.pow2_pos (-1022)
      exact decide_eq_false (not_le.mpr (by linarith))
  · rcases penalty_dbl ho k with h | ⟨r, hr, hb, h, h0, h5⟩
    · exact Or.inl h
    · rw [h]
      exact Or.inr ⟨r, rfl, lt_of_lt_of_le (Dbl.pow2_pos _) h0, h5⟩

theorem penalty_lt {o : Options Dbl} (h : PenaltyOK o) {j k : Nat} (hjk : j < k) {r : ℚ} (hr : Dbl.val (penalty o j) = some r) :
    penalty o k = .pinf ∨ ∃ r', Dbl.val (penalty o k) = some r' ∧ r < r' := by
  induction k, hjk using Nat.le_induction with
  | base =>
    rcases penalty_dbl h j with h1 | ⟨r0, hr0, hb, h1, h0, _⟩
    · rw [h1] at hr; cases hr
    · rw [h1] at hr
      injection hr with hr
      subst hr
      show penalty o j *. o.factor = _ ∨ _
      rcases Dbl.update (hr := hr0) (hb := hb) h0 h.f with h4 | ⟨t, ht, hb', h4, h5, _⟩
      · rw [h1]; exact Or.inl h4
      · right
        refine ⟨t, ?_, ?_⟩
        · show Dbl.val (penalty o j *. o.factor) = _
          rw [h1, h4]; rfl
        · have hp : 0 < r0 := lt_of_lt_of_le (Dbl.pow2_pos _) h0
          have := mul_pos hp (Dbl.pow2_pos (-53))
          linarith
  | succ k _ ih =>
    rcases ih with h1 | ⟨r', h1, h2⟩
    · left
      show penalty o k *. o.factor = _
      rw [h1]; exact Dbl.pinf_mul h.f
    · rcases penalty_dbl h k with h3 | ⟨r0, hr0, hb, h3, h0, _⟩
      · rw [h3] at h1; cases h1
      · rw [h3] at h1
        injection h1 with h1
        subst h1
        rcases Dbl.update (hr := hr0) (hb := hb) h0 h.f with h4 | ⟨t, ht, hb', h4, h5, _⟩
        · left
          show penalty o k *. o.factor = _
          rw [h3]; exact h4
        · right
          refine ⟨t, ?_, ?_⟩
          · show Dbl.val (penalty o k *. o.factor) = _
            rw [h3, h4]; rfl
          · have hp : 0 < r0 := lt_of_lt_of_le (Dbl.pow2_pos _) h0
            have := mul_pos hp (Dbl.pow2_pos (-53))
            linarith

/-- C59: every penalty update increases the penalty parameter, also if the product is rounded. -/
theorem C59_grows (h : DuringRun e o d s) (hp : pass e d s = .ok (.inl s')) (ho : PenaltyOK o.d.opts)
    (hne : s.outer ≠ s'.outer) {rho : Dbl} {r : ℚ} (hr : s.rho = some rho) (hv : Dbl.val rho = some r) :
    s'.rho = some .pinf ∨ ∃ rho' r', s'.rho = some rho' ∧ Dbl.val rho' = some r' ∧ r < r' := by
  have hs' : DuringRun e o d s' := by
    obtain ⟨i, s0, h1, h2, h3, h4, h5⟩ := h
    exact ⟨i, s0, h1, h2, h3, h4, .pass _ _ h5 hp⟩
  obtain ⟨k, k', h1, h2, h3, _⟩ := C22_pass h hp
  obtain ⟨j, g1, _, g3, _⟩ := C22_during h
  obtain ⟨j', g1', _, g3', _⟩ := C22_during hs'
  have ej : j = k := by rw [h1] at g1; injection g1 with g1; exact_mod_cast g1.symm
  have ej' : j' = k' := by rw [h2] at g1'; injection g1' with g1'; exact_mod_cast g1'.symm
  subst ej ej'
  have hlt : j < j' := by
    rcases lt_or_eq_of_le h3 with h | h
    · exact h
    · rw [h1, h2, h] at hne; exact absurd rfl hne
  rw [g3] at hr
  injection hr with hr
  rw [← hr] at hv
  rcases penalty_lt ho hlt hv with h | ⟨r', h, hl⟩
  · left; rw [g3', h]
  · exact Or.inr ⟨_, r', g3', h, hl⟩

/-- C59: number of penalty updates.  If the factor is at least 2, as it is by default, and `rho0 * 2^N` exceeds the
largest penalty parameter, then there are at most `N + 1` updates. -/
theorem C59_bound {fuel : Nat} {r : RV × Obj Dbl} {i : RV × Obj Dbl} {a b : ℚ}
    (h : runSolver e fuel o = .ok (some r)) (hi : initializeSolver e o = .ok i) (hok : i.1 = .successfulReturn)
    (ho : PenaltyOK o.d.opts) (ha : Dbl.val o.d.opts.rho0 = some a) (hb : Dbl.val o.d.opts.maxRho = some b)
    (hf : (two <=. o.d.opts.factor) = true) (N : Nat) (hN : 1 ≤ N) (hcap : b < a * 2 ^ N) :
    r.2.s.stats.iterOuter ≤ N + 1 := by
  refine C23_bound h hi hok N hN fun j hj => ?_
  obtain ⟨_, _, eb⟩ := Dbl.eq_num hb
  rw [eb]
  rcases penalty_dbl ho j with h1 | ⟨r0, hr0, hb', h1, h0, h2⟩
  · rw [h1]; rfl
  · rw [h1]
    refine decide_eq_true ?_
    have h3 := (h2 a ha).2 hf
    have ha0 : 0 < a := by
      rcases penalty_dbl ho 0 with h4 | ⟨r1, hr1, hb1, h4, h5, _⟩
      · change o.d.opts.rho0 = _ at h4
        rw [h4] at ha; cases ha
      · change o.d.opts.rho0 = _ at h4
        rw [h4] at ha
        injection ha with ha
        subst ha
        exact lt_of_lt_of_le (Dbl.pow2_pos _) h5
    have h6 : a * 2 ^ N ≤ a * 2 ^ j := mul_le_mul_of_nonneg_left (pow_le_pow_right₀ (by norm_num) hj) ha0.le
    linarith

end

/-- The default options satisfy the hypotheses; the default limits allow at most 35 penalty updates. -/
example : PenaltyOK (Options.default 0 0) ∧ (two <=. (Options.default 0 0 : Options Dbl).factor) = true ∧
    ∃ a b, Dbl.val (Options.default 0 0 : Options Dbl).rho0 = some a ∧ Dbl.val (Options.default 0 0 : Options Dbl).maxRho = some b ∧
      b < a * 2 ^ 34 := by
  refine ⟨⟨by decide +kernel, by decide +kernel, ?_, ?_⟩, by decide +kernel, Dbl.round (1 / 100), 100000000, by decide +kernel,
    by decide +kernel, by decide +kernel⟩
  · intro h
    have : Dbl.val (Options.default 0 0 : Options Dbl).rho0 = some (Dbl.round (1 / 100)) := by decide +kernel
    rw [h] at this; cases this
  · intro h
    have : Dbl.val (Options.default 0 0 : Options Dbl).factor = some 2 := by decide +kernel
    rw [h] at this; cases this

/-- The check of the initial value in the setter is needed: the smallest positive double does not grow. -/
example : let r : Dbl := Dbl.rnd (Dbl.pow2 (-1074))
    Dbl.val (r *. lit 125 2) = Dbl.val r ∧ Dbl.val r = some (Dbl.pow2 (-1074)) := by decide +kernel

end LCQ
