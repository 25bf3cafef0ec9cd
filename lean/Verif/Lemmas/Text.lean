import Verif.Model.Text
import Verif.Spec.Text
import Verif.Lemmas.Binary64
import Verif.Lemmas.Loop
import Mathlib.Tactic.FieldSimp
import Mathlib.Data.List.TakeWhile

/-!
# Text of a data file: lemmas
-/

namespace LCQ

/-- outcomes of a loop body that correspond to each other -/
def LRel {σ τ ρ : Type} (R : σ → τ → Prop) : M (σ ⊕ ρ) → M (τ ⊕ ρ) → Prop
  | .ok (.inl s), .ok (.inl t) => R s t
  | .ok (.inr a), .ok (.inr b) => a = b
  | .error e, .error e' => e = e'
  | _, _ => False

theorem loopE_rel {σ τ ρ : Type} (R : σ → τ → Prop) (n : Nat) (f : Nat → σ → M (σ ⊕ ρ)) (g : Nat → τ → M (τ ⊕ ρ)) {s : σ} {t : τ}
    (h0 : R s t) (h : ∀ i s t, R s t → LRel R (f i s) (g i t)) : LRel R (loopE n f s) (loopE n g t) := by
  induction n with
  | zero => exact h0
  | succ n ih =>
    rw [loopE, loopE]
    cases hx : loopE n f s with
    | error e =>
      cases hy : loopE n g t with
      | error e' => rw [hx, hy] at ih; exact ih
      | ok y => rw [hx, hy] at ih; cases y <;> exact ih.elim
    | ok x =>
      cases hy : loopE n g t with
      | error e' => rw [hx, hy] at ih; cases x <;> exact ih.elim
      | ok y =>
        rw [hx, hy] at ih
        cases x with
        | inl s' =>
          cases y with
          | inl t' => exact h n s' t' ih
          | inr b => exact ih.elim
        | inr a =>
          cases y with
          | inl t' => exact ih.elim
          | inr b => exact ih

namespace Text

/-- the sequence of numbers found by a scanning function -/
inductive FToks {β : Type} (num : List Char → Option (β × List Char)) : List Char → List (Tok β) → Prop where
  | eof {t : List Char} : skip t = [] → FToks num t []
  | num {t u : List Char} {v : β} {ts : List (Tok β)} : skip t ≠ [] → num (skip t) = some (v, u) → FToks num u ts →
      FToks num t (.num v :: ts)
  | bad {t : List Char} : skip t ≠ [] → num (skip t) = none → FToks num t [.bad]

theorem white_iff (c : Char) : space c = true ↔ White c := by
  unfold space White
  simp only [decide_eq_true_eq, List.mem_cons, List.not_mem_nil, or_false]
  constructor
  · rintro (rfl | rfl | rfl | rfl | rfl | rfl) <;> decide
  · intro h
    have key : ∀ d : Char, c.toNat = d.toNat → c = d := fun d h => Char.toNat_inj.mp h
    rcases h with h | ⟨h1, h2⟩
    · exact .inl (key _ h)
    · have : c.toNat = 9 ∨ c.toNat = 10 ∨ c.toNat = 11 ∨ c.toNat = 12 ∨ c.toNat = 13 := by omega
      rcases this with h | h | h | h | h
      · exact .inr (.inl (key '\t' h))
      · exact .inr (.inr (.inl (key '\n' h)))
      · exact .inr (.inr (.inr (.inl (key '\x0b' h))))
      · exact .inr (.inr (.inr (.inr (.inl (key '\x0c' h)))))
      · exact .inr (.inr (.inr (.inr (.inr (key '\r' h)))))

theorem skip_white {w : List Char} (h : ∀ c ∈ w, White c) (t : List Char) : skip (w ++ t) = skip t := by
  rw [skip, List.dropWhile_append_of_pos fun c hc => (white_iff c).mpr (h c hc)]
  rfl

theorem skip_cons {c : Char} (h : ¬ White c) (t : List Char) : skip (c :: t) = c :: t := by
  rw [skip, List.dropWhile_cons_of_neg fun hc => h ((white_iff c).mp hc)]

/-- a text is white space and then the rest -/
theorem skip_split (t : List Char) : ∃ w, (∀ c ∈ w, White c) ∧ t = w ++ skip t ∧ ∀ c r, skip t = c :: r → ¬ White c := by
  refine ⟨t.takeWhile space, fun c hc => (white_iff c).mp (List.mem_takeWhile_imp hc), (List.takeWhile_append_dropWhile ..).symm, ?_⟩
  intro c r h hw
  induction t with
  | nil => cases h
  | cons a t ih =>
    by_cases ha : space a = true
    · rw [skip, List.dropWhile_cons_of_pos ha] at h; exact ih h
    · rw [skip, List.dropWhile_cons_of_neg ha] at h
      injection h with h _
      exact ha ((white_iff a).mpr (h ▸ hw))

theorem ftoks_iff {β : Type} {num : List Char → Option (β × List Char)} {R : List Char → β → List Char → Prop}
    (hR : ∀ t v u, num t = some (v, u) ↔ R t v u) (t : List Char) (ts : List (Tok β)) : Toks R t ts ↔ FToks num t ts := by
  constructor
  · intro h
    induction h with
    | eof hw => exact .eof (by have := skip_white hw []; rwa [List.append_nil] at this)
    | num hw hc hn _ ih =>
      refine .num ?_ ?_ ih <;> rw [skip_white hw, skip_cons hc]
      · simp
      · exact (hR _ _ _).mpr hn
    | bad hw hc hn =>
      refine .bad ?_ ?_ <;> rw [skip_white hw, skip_cons hc]
      · simp
      · cases hx : num _ with
        | none => rfl
        | some p => exact absurd ((hR _ p.1 p.2).mp hx) (hn _ _)
  · intro h
    induction h with
    | @eof t h =>
      obtain ⟨w, hw, ht, _⟩ := skip_split t
      rw [h, List.append_nil] at ht
      exact ht ▸ .eof hw
    | @num t u v ts h1 h2 _ ih =>
      obtain ⟨w, hw, ht, hs⟩ := skip_split t
      cases hk : skip t with
      | nil => exact absurd hk h1
      | cons c r =>
        rw [ht, hk]
        exact .num hw (hs c r hk) ((hR _ _ _).mp (hk ▸ h2)) ih
    | @bad t h1 h2 =>
      obtain ⟨w, hw, ht, hs⟩ := skip_split t
      cases hk : skip t with
      | nil => exact absurd hk h1
      | cons c r =>
        rw [ht, hk]
        refine .bad hw (hs c r hk) fun v u hn => ?_
        have := (hR _ _ _).mpr hn
        rw [← hk, h2] at this
        cases this

/-! ## the scanning functions find exactly the numbers of the grammar -/

theorem digits_iff (t ds u : List Char) : digits t = (ds, u) ↔ Digs t ds u := by
  constructor
  · intro h
    injection h with h1 h2
    refine ⟨by rw [← h1, ← h2]; exact (List.takeWhile_append_dropWhile ..).symm,
      fun c hc => List.mem_takeWhile_imp (h1 ▸ hc), fun c hc => ?_⟩
    rw [← h2] at hc
    have := List.head?_dropWhile_not Char.isDigit t
    rw [Option.mem_def.mp hc] at this
    simpa using this
  · rintro ⟨rfl, h1, h2⟩
    unfold digits
    rw [List.takeWhile_append_of_pos h1, List.dropWhile_append_of_pos h1]
    cases u with
    | nil => simp
    | cons c u =>
      have : c.isDigit = false := h2 c rfl
      rw [List.takeWhile_cons_of_neg (by simp [this]), List.dropWhile_cons_of_neg (by simp [this]), List.append_nil]

theorem sign_iff (t : List Char) (m : Bool) (u : List Char) : sign t = (m, u) ↔ Sgn t m u := by
  unfold Sgn
  constructor
  · intro h
    unfold sign at h
    split at h
    · injection h with h1 h2; exact .inl ⟨by rw [h2], h1.symm⟩
    · injection h with h1 h2; exact .inr (.inl ⟨by rw [h2], h1.symm⟩)
    · rename_i g1 g2
      injection h with h1 h2
      subst h2
      refine .inr (.inr ⟨rfl, h1.symm, ?_, ?_⟩) <;> intro hh <;> cases t with
      | nil => cases hh
      | cons c r => injection hh with hh; subst hh; first | exact g1 r rfl | exact g2 r rfl
  · rintro (⟨rfl, rfl⟩ | ⟨rfl, rfl⟩ | ⟨rfl, rfl, h1, h2⟩)
    · rfl
    · rfl
    · unfold sign
      split
      · exact absurd rfl h1
      · exact absurd rfl h2
      · rfl

theorem fraction_iff (t fs u : List Char) : fraction t = (fs, u) ↔ Frac t fs u := by
  unfold Frac
  constructor
  · intro h
    unfold fraction at h
    split at h
    · exact .inl ⟨_, rfl, (digits_iff ..).mp h⟩
    · rename_i g
      injection h with h1 h2
      subst h2
      refine .inr ⟨rfl, h1.symm, fun hh => ?_⟩
      cases t with
      | nil => cases hh
      | cons c r => injection hh with hh; subst hh; exact g r rfl
  · rintro (⟨v, rfl, h⟩ | ⟨rfl, rfl, h⟩)
    · exact (digits_iff ..).mpr h
    · unfold fraction
      split
      · exact absurd rfl h
      · rfl

theorem exponent_iff (t : List Char) (x : ℚ) (u : List Char) : exponent t = some (x, u) ↔ Expo t x u := by
  unfold Expo
  constructor
  · intro h
    cases t with
    | nil => injection h with h; injection h with h1 h2; subst h2; exact .inr ⟨rfl, h1.symm, by simp, by simp⟩
    | cons c r =>
      rw [exponent] at h
      split at h
      · rename_i hc
        split at h
        · cases h
        · rename_i hne
          injection h with h
          injection h with h1 h2
          refine .inl ⟨c, r, (sign r).1, (sign r).2, (digits (sign r).2).1, rfl, hc, (sign_iff r _ _).mp rfl, (digits_iff ..).mp (by rw [← h2]), hne, ?_⟩
          rw [← h1, pow10, ofDigits, one_div]
      · rename_i hc
        injection h with h
        injection h with h1 h2
        subst h2
        exact .inr ⟨rfl, h1.symm, fun hh => hc (.inl (by injection hh)), fun hh => hc (.inr (by injection hh))⟩
  · rintro (⟨c, v, m, w, es, rfl, hc, hs, hd, hne, rfl⟩ | ⟨rfl, rfl, h1, h2⟩)
    · have hs := (sign_iff ..).mpr hs
      have hd := (digits_iff ..).mpr hd
      rw [exponent, if_pos hc, hs]
      simp only [hd]
      rw [if_neg hne, pow10, ofDigits, one_div]
    · cases t with
      | nil => rfl
      | cons c r =>
        rw [exponent, if_neg]
        rintro (rfl | rfl)
        · exact h1 rfl
        · exact h2 rfl

theorem decimal_iff (t : List Char) (x : ℚ) (u : List Char) : decimal t = some (x, u) ↔ Deci t x u := by
  unfold Deci
  constructor
  · intro h
    unfold decimal at h
    simp only at h
    split at h
    · cases h
    · rename_i h1
      split at h
      · cases h
      · rename_i h2
        rw [Option.map_eq_some_iff] at h
        obtain ⟨p, hp, hq⟩ := h
        injection hq with q1 q2
        refine ⟨(digits t).1, (digits t).2, (fraction (digits t).2).1, (fraction (digits t).2).2, p.1, (digits_iff t _ _).mp rfl, (fraction_iff _ _ _).mp rfl, ?_, ?_, (exponent_iff _ _ _).mp (by rw [hp, ← q2]), ?_⟩
        · by_contra hn
          exact h1 ⟨not_not.mp fun h => hn (.inl h), not_not.mp fun h => hn (.inr h)⟩
        · intro h0
          exact ⟨fun h => h2 ⟨h0, .inl h⟩, fun h => h2 ⟨h0, .inr h⟩⟩
        · rw [← q1, ofDigits]
  · rintro ⟨ds, v, fs, w, p, h1, h2, h3, h4, h5, rfl⟩
    have h1 := (digits_iff ..).mpr h1
    have h2 := (fraction_iff ..).mpr h2
    have h5 := (exponent_iff ..).mpr h5
    unfold decimal
    simp only [h1, h2, h5]
    rw [if_neg, if_neg]
    · rfl
    · rintro ⟨h, h' | h'⟩
      · exact (h4 h).1 h'
      · exact (h4 h).2 h'
    · rintro ⟨h, h'⟩
      exact h3.elim (· h) (· h')

theorem word_iff (w t u : List Char) : word w t = some u ↔ Word w t u := by
  unfold word Word
  constructor
  · intro h
    split at h
    · rename_i hw
      injection h with h
      exact ⟨_, by rw [← h]; exact (List.take_append_drop ..).symm, hw⟩
    · cases h
  · rintro ⟨p, rfl, rfl⟩
    rw [List.length_map, List.take_left, if_pos rfl, List.drop_left]

theorem word_append (a b t u : List Char) : Word (a ++ b) t u ↔ ∃ v, Word a t v ∧ Word b v u := by
  constructor
  · rintro ⟨p, rfl, h⟩
    obtain ⟨x, y, rfl, h1, h2⟩ := List.map_eq_append_iff.mp h
    exact ⟨y ++ u, ⟨x, by rw [List.append_assoc], h1⟩, y, rfl, h2⟩
  · rintro ⟨v, ⟨x, rfl, h1⟩, y, rfl, h2⟩
    exact ⟨x ++ y, by rw [List.append_assoc], by rw [List.map_append, h1, h2]⟩

theorem word_head {c : Char} {w t u : List Char} (h : Word (c :: w) t u) : t.head?.map Char.toLower = some c := by
  obtain ⟨p, rfl, h⟩ := h
  cases p with
  | nil => cases h
  | cons a p => injection h with h _; simp [h]

theorem special_iff (t : List Char) (v : Dbl) (u : List Char) :
    special t = some (v, u) ↔ (Infin t u ∧ v = .pinf) ∨ (NaN t u ∧ v = .nan) := by
  have hi : Infin t u ↔ ∃ r, Word ['i', 'n', 'f'] t r ∧
      ((r.head?.map Char.toLower ≠ some 'i' ∧ u = r) ∨ (r.head?.map Char.toLower = some 'i' ∧ Word ['i', 'n', 'i', 't', 'y'] r u)) := by
    unfold Infin
    rw [show ['i', 'n', 'f', 'i', 'n', 'i', 't', 'y'] = ['i', 'n', 'f'] ++ ['i', 'n', 'i', 't', 'y'] from rfl, word_append]
    constructor
    · rintro (⟨h1, h2⟩ | ⟨r, h1, h2⟩)
      · exact ⟨u, h1, .inl ⟨h2, rfl⟩⟩
      · exact ⟨r, h1, .inr ⟨word_head h2, h2⟩⟩
    · rintro ⟨r, h1, ⟨h2, rfl⟩ | ⟨_, h2⟩⟩
      · exact .inl ⟨h1, h2⟩
      · exact .inr ⟨r, h1, h2⟩
  have hin : ∀ {r r'}, Word ['i', 'n', 'f'] t r → Word ['n', 'a', 'n'] t r' → False := by
    intro r r' h1 h2
    have a := word_head h1
    rw [word_head h2] at a
    cases a
  unfold special
  cases h1 : word ['i', 'n', 'f'] t with
  | some r =>
    have w1 := (word_iff ..).mp h1
    have hn : ¬ NaN t u := fun h => hin w1 h.1
    have hu : ∀ r', Word ['i', 'n', 'f'] t r' → r' = r := fun r' h => by
      have := (word_iff ..).mpr h
      rw [h1] at this
      injection this with this
      exact this.symm
    simp only [hn, false_and, or_false, hi]
    split
    · rename_i hc
      rw [Option.map_eq_some_iff]
      constructor
      · rintro ⟨a, ha, he⟩
        injection he with e1 e2
        exact ⟨⟨r, w1, .inr ⟨hc, (word_iff ..).mp (by rw [ha, e2])⟩⟩, e1.symm⟩
      · rintro ⟨⟨r', h, h' | h'⟩, rfl⟩
        · rw [hu r' h] at h'; exact absurd hc h'.1
        · rw [hu r' h] at h'; exact ⟨u, (word_iff ..).mpr h'.2, rfl⟩
    · rename_i hc
      constructor
      · rintro h
        injection h with h
        injection h with e1 e2
        exact ⟨⟨r, w1, .inl ⟨hc, e2.symm⟩⟩, e1.symm⟩
      · rintro ⟨⟨r', h, h' | h'⟩, rfl⟩
        · rw [hu r' h] at h'; rw [h'.2]
        · rw [hu r' h] at h'; exact absurd h'.1 hc
  | none =>
    have hni : ¬ Infin t u := by
      rw [hi]
      rintro ⟨r, h, _⟩
      rw [(word_iff ..).mpr h] at h1
      cases h1
    simp only [hni, false_and, false_or]
    unfold NaN
    cases h2 : word ['n', 'a', 'n'] t with
    | none =>
      constructor
      · intro h; cases h
      · rintro ⟨⟨h, _⟩, _⟩
        rw [(word_iff ..).mpr h] at h2
        cases h2
    | some r =>
      simp only
      split
      · rename_i hc
        constructor
        · intro h; cases h
        · rintro ⟨⟨h, h'⟩, _⟩
          rw [(word_iff ..).mpr h] at h2
          injection h2 with h2
          rw [h2] at h'
          exact absurd hc h'
      · rename_i hc
        constructor
        · intro h
          injection h with h
          injection h with e1 e2
          subst e2
          exact ⟨⟨(word_iff ..).mp h2, hc⟩, e1.symm⟩
        · rintro ⟨⟨h, h'⟩, rfl⟩
          rw [(word_iff ..).mpr h] at h2
          injection h2 with h2
          rw [h2]

/-- a decimal number begins with a digit or a point -/
theorem deci_head {t : List Char} {x : ℚ} {u : List Char} (h : Deci t x u) : ∃ c r, t = c :: r ∧ (c.isDigit = true ∨ c = '.') := by
  obtain ⟨ds, v, fs, w, p, ⟨rfl, h1, _⟩, h2, h3, _⟩ := h
  cases ds with
  | cons c ds => exact ⟨c, _, rfl, .inl (h1 c (List.mem_cons_self ..))⟩
  | nil =>
    rcases h2 with ⟨v', rfl, _⟩ | ⟨_, h, _⟩
    · exact ⟨'.', v', rfl, .inr rfl⟩
    · exact absurd h (h3.resolve_left (fun h => h rfl))

theorem lower_start {c : Char} (h : c.isDigit = true ∨ c = '.') : c.toLower ≠ 'i' ∧ c.toLower ≠ 'n' := by
  rcases h with h | rfl
  · have hb : 48 ≤ c.toNat ∧ c.toNat ≤ 57 := by
      rw [Char.isDigit, Bool.and_eq_true, decide_eq_true_eq, decide_eq_true_eq] at h
      exact ⟨h.1, h.2⟩
    have : c.toLower = c := by
      rw [Char.toLower, dif_neg]
      rintro ⟨h1, _⟩
      have : 65 ≤ c.toNat := h1
      omega
    rw [this]
    constructor <;> rintro rfl <;> exact absurd hb (by decide)
  · decide

theorem float_iff (t : List Char) (v : Dbl) (u : List Char) : float t = some (v, u) ↔ Number t v u := by
  have hno : ∀ {s x u'}, Deci s x u' → ∀ v u, special s ≠ some (v, u) := by
    intro s x u' hd v u hs
    obtain ⟨c, r, rfl, hc⟩ := deci_head hd
    obtain ⟨n1, n2⟩ := lower_start hc
    rcases (special_iff _ _ _).mp hs with ⟨⟨h, _⟩ | h, _⟩ | ⟨⟨h, _⟩, _⟩
    all_goals
      have := word_head h
      simp only [List.head?_cons, Option.map_some, Option.some.injEq] at this
      first | exact n1 this | exact n2 this
  unfold Number
  constructor
  · intro h
    refine ⟨(sign t).1, (sign t).2, (sign_iff ..).mp rfl, ?_⟩
    unfold float at h
    simp only at h
    cases hs : special (sign t).2 with
    | some p =>
      rw [hs] at h
      injection h with h
      injection h with h1 h2
      rcases (special_iff _ p.1 p.2).mp hs with ⟨g1, g2⟩ | ⟨g1, g2⟩
      · refine .inr (.inl ⟨h2 ▸ g1, ?_⟩)
        rw [← h1, g2]; rfl
      · refine .inr (.inr ⟨h2 ▸ g1, ?_⟩)
        rw [← h1, g2]
        cases (sign t).1 <;> rfl
    | none =>
      rw [hs] at h
      simp only [Option.map_eq_some_iff] at h
      obtain ⟨p, hp, hq⟩ := h
      injection hq with q1 q2
      exact .inl ⟨p.1, (decimal_iff ..).mp (by rw [hp, ← q2]), q1.symm⟩
  · rintro ⟨m, s, hs, h⟩
    have hs := (sign_iff ..).mpr hs
    unfold float
    simp only [hs]
    rcases h with ⟨x, hd, rfl⟩ | ⟨hi, rfl⟩ | ⟨hn, rfl⟩
    · have : special s = none := by
        cases hx : special s with
        | none => rfl
        | some p => exact absurd hx (hno hd p.1 p.2)
      rw [this, (decimal_iff ..).mpr hd]
      rfl
    · rw [(special_iff s .pinf u).mpr (.inl ⟨hi, rfl⟩)]
      rfl
    · rw [(special_iff s .nan u).mpr (.inr ⟨hn, rfl⟩)]
      cases m <;> rfl

theorem int_iff (t : List Char) (v : Int) (u : List Char) : int t = some (v, u) ↔ Integer t v u := by
  unfold Integer
  constructor
  · intro h
    unfold int at h
    simp only at h
    split at h
    · cases h
    · rename_i hne
      injection h with h
      injection h with h1 h2
      exact ⟨(sign t).1, (sign t).2, (digits (sign t).2).1, (sign_iff t _ _).mp rfl, (digits_iff ..).mp (by rw [← h2]), hne, h1.symm⟩
  · rintro ⟨m, s, ds, hs, hd, hne, rfl⟩
    unfold int
    simp only [(sign_iff ..).mpr hs, (digits_iff ..).mpr hd]
    rw [if_neg hne]
    rfl

theorem skip_skip (t : List Char) : skip (skip t) = skip t := by
  unfold skip
  induction t with
  | nil => rfl
  | cons c t ih =>
    by_cases h : space c = true
    · rw [List.dropWhile_cons_of_pos h, ih]
    · rw [List.dropWhile_cons_of_neg h, List.dropWhile_cons_of_neg h]

theorem skip_le (t : List Char) : (skip t).length ≤ t.length := (List.dropWhile_sublist _).length_le

theorem FToks.skip {β : Type} {num : List Char → Option (β × List Char)} {t : List Char} {ts : List (Tok β)}
    (h : FToks num t ts) : FToks num (skip t) ts := by
  cases h with
  | eof h => exact .eof (by rw [skip_skip]; exact h)
  | num h1 h2 h3 => exact .num (by rwa [skip_skip]) (by rw [skip_skip]; exact h2) h3
  | bad h1 h2 => exact .bad (by rwa [skip_skip]) (by rw [skip_skip]; exact h2)

/-- `scanf` on the text is `fscanf` on the tokens -/
theorem scanf_toks {β : Type} {num : List Char → Option (β × List Char)} {t : List Char} {ts : List (Tok β)}
    (h : FToks num t ts) : (scanf num t).1 = (fscanf ts).1 ∧ (scanf num t).2.1 = (fscanf ts).2.1 ∧
      FToks num (scanf num t).2.2 (fscanf ts).2.2 := by
  cases h with
  | eof h =>
    rw [scanf, h]
    exact ⟨rfl, rfl, .eof rfl⟩
  | num h1 h2 h3 =>
    rw [scanf]
    cases hs : Text.skip t with
    | nil => exact absurd hs h1
    | cons c cs =>
      rw [hs] at h2
      simp only [h2]
      exact ⟨rfl, rfl, h3.skip⟩
  | bad h1 h2 =>
    rw [scanf]
    cases hs : Text.skip t with
    | nil => exact absurd hs h1
    | cons c cs =>
      have h2' := h2
      rw [hs] at h2
      simp only [h2]
      refine ⟨rfl, rfl, .bad ?_ ?_⟩
      · rw [← hs, skip_skip, hs]; simp
      · rw [← hs, skip_skip]; exact h2'

theorem readLoop_toks {β : Type} {num : List Char → Option (β × List Char)} {t : List Char} {ts : List (Tok β)}
    (h : FToks num t ts) (b : List β) (n : Nat) : readLoop num t b n = LCQ.readLoop ts b n := by
  have key := loopE_rel (ρ := List β) (fun (s : List Char × List β) (u : List (Tok β) × List β) => FToks num s.1 u.1 ∧ s.2 = u.2) n
    (fun i (s : List Char × List β) => do
      let b ← store s.2 i (scanf num s.1).2.1
      if (scanf num s.1).1 = 0 then .ok (.inr b) else .ok (.inl ((scanf num s.1).2.2, b)))
    (fun i (s : List (Tok β) × List β) => do
      let b ← store s.2 i (fscanf s.1).2.1
      if (fscanf s.1).1 = 0 then .ok (.inr b) else .ok (.inl ((fscanf s.1).2.2, b)))
    (s := (t, b)) (t := (ts, b)) ⟨h, rfl⟩ (by
      intro i s u ⟨h1, h2⟩
      obtain ⟨e1, e2, e3⟩ := scanf_toks h1
      simp only [e1, e2, h2]
      cases store u.2 i (fscanf u.1).2.1 with
      | error e => exact rfl
      | ok b =>
        simp only [ok_bind]
        split
        · exact rfl
        · exact ⟨e3, rfl⟩)
  rw [readLoop, LCQ.readLoop]
  revert key
  generalize loopE n _ (t, b) = x
  generalize loopE n _ (ts, b) = y
  intro key
  rcases x with e | x | x <;> rcases y with e' | y | y
  · have : e = e' := key
    rw [this]; rfl
  · exact key.elim
  · exact key.elim
  · exact key.elim
  · have : x.2 = y.2 := key.2
    simp only [ok_bind, this]
  · exact key.elim
  · exact key.elim
  · exact key.elim
  · have : x = y := key
    rw [this]
    rfl

/-! ## conversions consume input -/

theorem sign_le (cs : List Char) : (sign cs).2.length ≤ cs.length := by
  unfold sign
  split <;> simp

theorem digits_len (cs : List Char) : (digits cs).1.length + (digits cs).2.length = cs.length := by
  rw [digits, ← List.length_append, List.takeWhile_append_dropWhile]

theorem fraction_len (cs : List Char) : (fraction cs).1.length + (fraction cs).2.length ≤ cs.length := by
  unfold fraction
  split
  · rw [digits_len]; simp
  · simp

theorem exponent_le {cs r : List Char} {x : ℚ} (h : exponent cs = some (x, r)) : r.length ≤ cs.length := by
  cases cs with
  | nil => rw [exponent] at h; injection h with h; injection h with _ h; rw [← h]
  | cons c cs =>
    rw [exponent] at h
    split at h
    · split at h
      · cases h
      · injection h with h
        injection h with _ h
        rw [← h]
        have := digits_len (sign cs).2
        have := sign_le cs
        simp only [List.length_cons]
        omega
    · injection h with h; injection h with _ h; rw [← h]

theorem decimal_lt {cs r : List Char} {x : ℚ} (h : decimal cs = some (x, r)) : r.length < cs.length := by
  simp only [decimal] at h
  split at h
  · cases h
  rename_i hne
  split at h
  · cases h
  rw [Option.map_eq_some_iff] at h
  obtain ⟨y, hy, h⟩ := h
  injection h with _ h
  have h1 := exponent_le (x := y.1) (r := y.2) hy
  have h2 := digits_len cs
  have h3 := fraction_len (digits cs).2
  have h4 : 0 < (digits cs).1.length + (fraction (digits cs).2).1.length := by
    rw [Nat.pos_iff_ne_zero]
    intro h0
    apply hne
    constructor <;> apply List.eq_nil_of_length_eq_zero <;> omega
  rw [← h]
  omega

theorem word_len {w cs r : List Char} (h : word w cs = some r) : r.length + w.length = cs.length := by
  rw [word] at h
  split at h
  · rename_i hw
    injection h with h
    have := congrArg List.length hw
    simp only [List.length_map, List.length_take] at this
    rw [← h, List.length_drop]
    omega
  · cases h

theorem special_lt {cs r : List Char} {x : Dbl} (h : special cs = some (x, r)) : r.length < cs.length := by
  rw [special] at h
  split at h
  · rename_i u hu
    have hu := word_len hu
    simp only [List.length_cons, List.length_nil] at hu
    split at h
    · rw [Option.map_eq_some_iff] at h
      obtain ⟨y, hy, h⟩ := h
      injection h with _ h
      have hy := word_len hy
      simp only [List.length_cons, List.length_nil] at hy
      rw [← h]; omega
    · injection h with h
      injection h with _ h
      rw [← h]; omega
  · split at h
    · rename_i u hu
      have hu := word_len hu
      simp only [List.length_cons, List.length_nil] at hu
      split at h
      · cases h
      · injection h with h
        injection h with _ h
        rw [← h]; omega
    · cases h

theorem float_lt {cs r : List Char} {x : Dbl} (h : float cs = some (x, r)) : r.length < cs.length := by
  have hs := sign_le cs
  simp only [float] at h
  split at h
  · rename_i v hv
    injection h with h
    injection h with _ h
    have := special_lt (x := v.1) (r := v.2) hv
    rw [← h]; omega
  · rw [Option.map_eq_some_iff] at h
    obtain ⟨v, hv, h⟩ := h
    injection h with _ h
    have := decimal_lt (x := v.1) (r := v.2) hv
    rw [← h]; omega

theorem int_lt {cs r : List Char} {x : Int} (h : int cs = some (x, r)) : r.length < cs.length := by
  have hs := sign_le cs
  have hd := digits_len (sign cs).2
  simp only [int] at h
  split at h
  · cases h
  · rename_i hne
    injection h with h
    injection h with _ h
    have : 0 < (digits (sign cs).2).1.length := List.length_pos_of_ne_nil hne
    rw [← h]; omega

theorem toks_exists {β : Type} {num : List Char → Option (β × List Char)}
    (hn : ∀ cs x r, num cs = some (x, r) → r.length < cs.length) : ∀ (k : Nat) (t : List Char), t.length ≤ k → ∃ ts, FToks num t ts := by
  intro k
  induction k with
  | zero =>
    intro t h
    have : t = [] := List.eq_nil_of_length_eq_zero (by omega)
    subst this
    exact ⟨[], .eof rfl⟩
  | succ k ih =>
    intro t h
    by_cases h0 : Text.skip t = []
    · exact ⟨[], .eof h0⟩
    · cases hx : num (Text.skip t) with
      | none => exact ⟨_, .bad h0 hx⟩
      | some v =>
        obtain ⟨ts, hts⟩ := ih v.2 (by have := hn _ v.1 v.2 hx; have := skip_le t; omega)
        exact ⟨_, .num h0 hx hts⟩

theorem toks_unique {β : Type} {num : List Char → Option (β × List Char)} {t : List Char} {ts us : List (Tok β)}
    (h : FToks num t ts) (g : FToks num t us) : ts = us := by
  induction h generalizing us with
  | eof h =>
    cases g with
    | eof _ => rfl
    | num h1 _ _ => exact absurd h h1
    | bad h1 _ => exact absurd h h1
  | num h1 h2 h3 ih =>
    cases g with
    | eof h => exact absurd h h1
    | num _ g2 g3 =>
      rw [h2] at g2
      injection g2 with g2
      injection g2 with e1 e2
      subst e1 e2
      rw [ih g3]
    | bad _ g2 => rw [h2] at g2; cases g2
  | bad h1 h2 =>
    cases g with
    | eof h => exact absurd h h1
    | num _ g2 _ => rw [h2] at g2; cases g2
    | bad _ _ => rfl

/-! ## what `%f` prints is read back -/

theorem sign_digit {c : Char} (cs : List Char) (h : c.isDigit = true) : sign (c :: cs) = (false, c :: cs) := by
  unfold sign
  split
  · rename_i h'; injection h' with h' _; rw [h'] at h; exact absurd h (by decide)
  · rename_i h'; injection h' with h' _; rw [h'] at h; exact absurd h (by decide)
  · rfl

theorem toLower_digit {c : Char} (h : c.isDigit = true) : c.toLower = c := by
  rw [Char.toLower]
  rw [Char.isDigit] at h
  simp only [Bool.and_eq_true, decide_eq_true_eq] at h
  split
  · rename_i h'
    exfalso
    have h1 : c.val ≤ 57 := h.2
    have h2 : (65 : UInt32) ≤ c.val := h'.1
    have := UInt32.le_trans h2 h1
    exact absurd this (by decide)
  · rfl

theorem special_digit {c : Char} (cs : List Char) (h : c.isDigit = true) : special (c :: cs) = none := by
  have hw : ∀ d w, d.isDigit = false → word (d :: w) (c :: cs) = none := by
    intro d w hd
    rw [word, if_neg]
    intro hx
    simp only [List.length_cons, List.take_succ_cons, List.map_cons] at hx
    injection hx with hx _
    rw [toLower_digit h] at hx
    rw [hx, hd] at h
    cases h
  rw [special, hw _ _ (by decide), hw _ _ (by decide)]

theorem nat_digits (n : Nat) : ∀ c ∈ nat n, c.isDigit = true := fun _ h => Nat.isDigit_of_mem_toDigits (by decide) (by decide) h

theorem nat_ne (n : Nat) : nat n ≠ [] := Nat.toDigits_ne_nil

theorem six_digits (n : Nat) : ∀ c ∈ six n, c.isDigit = true := by
  intro c h
  rw [six, List.mem_append, List.mem_replicate] at h
  rcases h with ⟨_, rfl⟩ | h
  · decide
  · exact nat_digits n c h

theorem six_length {n : Nat} (h : n < 1000000) : (six n).length = 6 := by
  have : (nat n).length ≤ 6 := (Nat.length_toDigits_le_iff (by decide) (by decide)).mpr (by simpa using h)
  rw [six, List.length_append, List.length_replicate]
  omega

theorem ofDigits_six (a n : Nat) (h : n < 1000000) : ofDigits (nat a ++ six n) = a * 1000000 + n := by
  have h6 := six_length h
  rw [ofDigits, Nat.ofDigitChars_append, nat, Nat.ofDigitChars_toDigits (by decide) (by decide), Nat.ofDigitChars_eq_ofDigitChars_zero, h6]
  rw [six, Nat.ofDigitChars_append, Nat.ofDigitChars_replicate_zero, Nat.mul_zero, nat, Nat.ofDigitChars_toDigits (by decide) (by decide)]
  ring

theorem digits_append {ds : List Char} {c : Char} {cs : List Char} (h : ∀ d ∈ ds, d.isDigit = true) (hc : c.isDigit = false) :
    digits (ds ++ c :: cs) = (ds, c :: cs) := by
  rw [digits, List.takeWhile_append_of_pos h, List.dropWhile_append_of_pos h]
  simp [hc]

theorem decimal_fixed (a b : Nat) (hb : b < 1000000) (r : List Char) :
    decimal (nat a ++ ['.'] ++ six b ++ '\n' :: r) = some (((a * 1000000 + b : Nat) : ℚ) / 1000000, '\n' :: r) := by
  have h1 : digits (nat a ++ ['.'] ++ six b ++ '\n' :: r) = (nat a, '.' :: (six b ++ '\n' :: r)) := by
    rw [List.append_assoc, List.append_assoc]
    exact digits_append (nat_digits a) (by decide)
  have h2 : fraction ('.' :: (six b ++ '\n' :: r)) = (six b, '\n' :: r) := by
    rw [fraction]
    exact digits_append (six_digits b) (by decide)
  simp only [decimal, h1, h2]
  rw [if_neg (fun h => nat_ne a h.1), if_neg (by rintro ⟨_, h | h⟩ <;> simp at h)]
  rw [exponent, if_neg (by decide), Option.map_some, ofDigits_six a b hb, six_length hb]
  norm_num

theorem float_digit {c : Char} {cs : List Char} (h : c.isDigit = true) :
    float (c :: cs) = (decimal (c :: cs)).map fun v => (Dbl.rnd v.1, v.2) := by
  simp only [float, sign_digit cs h, special_digit cs h]
  simp

theorem float_minus {c : Char} {cs : List Char} (h : c.isDigit = true) :
    float ('-' :: c :: cs) = (decimal (c :: cs)).map fun v => (Dbl.rnd (-v.1), v.2) := by
  simp only [float, sign, special_digit cs h]
  simp

theorem nearest_sub (y : ℚ) : ((Dbl.nearest y : ℚ) ≤ y + 1 / 2) ∧ y - 1 / 2 ≤ Dbl.nearest y := by
  have := abs_le.mp (Dbl.nearest_err y)
  constructor <;> linarith [this.1, this.2]

theorem nearest_close {y : ℚ} {z : Int} (h : |y - z| < 1 / 2) : Dbl.nearest y = z := by
  obtain ⟨h1, h2⟩ := nearest_sub y
  obtain ⟨h3, h4⟩ := abs_lt.mp h
  have h5 : (Dbl.nearest y : ℚ) < z + 1 := by linarith
  have h6 : (z : ℚ) < Dbl.nearest y + 1 := by linarith
  have h5 : Dbl.nearest y < z + 1 := by exact_mod_cast h5
  have h6 : z < Dbl.nearest y + 1 := by exact_mod_cast h6
  omega

theorem nearest_mono {a b : ℚ} (h : a ≤ b) : Dbl.nearest a ≤ Dbl.nearest b := by
  by_contra hn
  have hn : Dbl.nearest b + 1 ≤ Dbl.nearest a := by omega
  have hn' : (Dbl.nearest b : ℚ) + 1 ≤ Dbl.nearest a := by exact_mod_cast hn
  obtain ⟨h1, h2⟩ := nearest_sub a
  obtain ⟨h3, h4⟩ := nearest_sub b
  have : a = b := by linarith
  rw [this] at hn
  omega

theorem micro_sign {q : ℚ} : (q < 0 → micro q ≤ 0) ∧ (0 ≤ q → 0 ≤ micro q) := by
  have h0 : Dbl.nearest 0 = 0 := by simpa using Dbl.nearest_int 0
  constructor
  · intro h
    have := nearest_mono (a := q * 1000000) (b := 0) (by linarith)
    rw [h0] at this
    exact this
  · intro h
    have := nearest_mono (a := 0) (b := q * 1000000) (by linarith)
    rw [h0] at this
    exact this

/-- `%lf` on what `%f` has printed -/
theorem float_fixed (x : Dbl) (r : List Char) : float (fixed x ++ '\n' :: r) = some (back x, '\n' :: r) := by
  cases x with
  | pinf => rfl
  | ninf => rfl
  | nan => rfl
  | num q h hb =>
    obtain ⟨m1, m2⟩ := micro_sign (q := q)
    have hk : (micro q).natAbs / 1000000 * 1000000 + (micro q).natAbs % 1000000 = (micro q).natAbs := Nat.div_add_mod' _ _
    have hd := decimal_fixed ((micro q).natAbs / 1000000) ((micro q).natAbs % 1000000) (Nat.mod_lt _ (by decide)) r
    rw [hk] at hd
    obtain ⟨c, cs, hc⟩ : ∃ c cs, nat ((micro q).natAbs / 1000000) ++ ['.'] ++ six ((micro q).natAbs % 1000000) ++ '\n' :: r = c :: cs ∧ c.isDigit = true := by
      cases hn : nat ((micro q).natAbs / 1000000) with
      | nil => exact absurd hn (nat_ne _)
      | cons c cs => exact ⟨c, _, rfl, nat_digits ((micro q).natAbs / 1000000) c (by rw [hn]; exact List.mem_cons_self ..)⟩
    have hb : back (.num q h hb) = Dbl.rnd ((micro q : ℚ) / 1000000) := rfl
    rw [hb]
    by_cases hq : q < 0
    · have : fixed (.num q h ‹_›) ++ '\n' :: r = '-' :: (nat ((micro q).natAbs / 1000000) ++ ['.'] ++ six ((micro q).natAbs % 1000000) ++ '\n' :: r) := by
        simp only [fixed, if_pos hq, List.cons_append, List.nil_append, List.append_assoc]
      rw [this, hc.1, float_minus hc.2, ← hc.1, hd, Option.map_some]
      have e : (micro q : ℚ) = -((micro q).natAbs : ℚ) := by
        rw [Nat.cast_natAbs, abs_of_nonpos (m1 hq)]; push_cast; ring
      rw [e, neg_div]
    · have : fixed (.num q h ‹_›) ++ '\n' :: r = (nat ((micro q).natAbs / 1000000) ++ ['.'] ++ six ((micro q).natAbs % 1000000) ++ '\n' :: r) := by
        simp only [fixed, if_neg hq, List.nil_append, List.append_assoc]
      rw [this, hc.1, float_digit hc.2, ← hc.1, hd, Option.map_some]
      have e : (micro q : ℚ) = ((micro q).natAbs : ℚ) := by
        rw [Nat.cast_natAbs, abs_of_nonneg (m2 (not_lt.mp hq))]
      rw [e]

theorem fixed_first (x : Dbl) : ∃ c cs, fixed x = c :: cs ∧ space c = false := by
  have hd : ∀ c : Char, c.isDigit = true → space c = false := by
    intro c hc
    by_contra h
    simp only [space, Bool.not_eq_false, decide_eq_true_eq, List.mem_cons, List.not_mem_nil, or_false] at h
    rcases h with rfl | rfl | rfl | rfl | rfl | rfl <;> exact absurd hc (by decide)
  cases x with
  | pinf => exact ⟨_, _, rfl, by decide⟩
  | ninf => exact ⟨_, _, rfl, by decide⟩
  | nan => exact ⟨_, _, rfl, by decide⟩
  | num q h hb =>
    by_cases hq : q < 0
    · simp only [fixed, if_pos hq]
      exact ⟨_, _, rfl, by decide⟩
    · simp only [fixed, if_neg hq]
      cases hn : nat ((micro q).natAbs / 1000000) with
      | nil => exact absurd hn (nat_ne _)
      | cons c cs => exact ⟨c, _, rfl, hd c (nat_digits ((micro q).natAbs / 1000000) c (by rw [hn]; exact List.mem_cons_self ..))⟩

theorem toks_written (b : List Dbl) : FToks float (b.flatMap fun x => fixed x ++ ['\n']) (b.map fun x => Tok.num (back x)) := by
  have key : ∀ b : List Dbl, FToks float ('\n' :: (b.flatMap fun x => fixed x ++ ['\n'])) (b.map fun x => Tok.num (back x)) ∧
      FToks float (b.flatMap fun x => fixed x ++ ['\n']) (b.map fun x => Tok.num (back x)) := by
    intro b
    induction b with
    | nil => exact ⟨.eof rfl, .eof rfl⟩
    | cons x b ih =>
      obtain ⟨c, cs, hc, hs⟩ := fixed_first x
      have ht : (x :: b).flatMap (fun x => fixed x ++ ['\n']) = fixed x ++ '\n' :: (b.flatMap fun x => fixed x ++ ['\n']) := by
        simp
      have h1 : Text.skip (fixed x ++ '\n' :: (b.flatMap fun x => fixed x ++ ['\n'])) = fixed x ++ '\n' :: (b.flatMap fun x => fixed x ++ ['\n']) := by
        rw [hc, List.cons_append, Text.skip, List.dropWhile_cons_of_neg (by simp [hs])]
      have h2 : Text.skip ('\n' :: (fixed x ++ '\n' :: (b.flatMap fun x => fixed x ++ ['\n']))) = fixed x ++ '\n' :: (b.flatMap fun x => fixed x ++ ['\n']) := by
        rw [Text.skip, List.dropWhile_cons_of_pos (by decide)]
        exact h1
      rw [ht, List.map_cons]
      constructor
      · refine .num (by rw [h2, hc]; simp) ?_ ih.1
        rw [h2, float_fixed]
      · refine .num (by rw [h1, hc]; simp) ?_ ih.1
        rw [h1, float_fixed]
  exact (key b).2

end Text
end LCQ
