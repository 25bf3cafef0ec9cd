import Verif.Spec.Print
import Verif.Lemmas.Print
import Verif.Props.Rows
import Verif.Props.Convert
import Verif.Props.Rounding
import Verif.Props.Options

/-!
# C73 the console output as text
-/

namespace LCQ
open Dbl

/-! ## numbers -/

theorem sig_short {q : ℚ} (hq : q ≠ 0) :
    ∃ (j l : Int), |j| < 1000 ∧ ((Text.sig q).1 : ℚ) * 10 ^ ((Text.sig q).2 - 2) = (j : ℚ) * 10 ^ l ∧ 0 < j := by
  obtain ⟨_, _, _, _, _, h1, h2, _, _⟩ := Text.sig_spec hq
  refine ⟨(Text.sig q).1, (Text.sig q).2 - 2, ?_, by push_cast; rfl, by omega⟩
  rw [abs_of_nonneg (by omega)]
  omega

/-- C73: a finite number is shown as the closest number with three significant digits, so with a relative error of at most 0.5
percent, and reading the text yields this number (or the double next to it); zero is shown for zero only. -/
theorem C73_value {x : Dbl} {q : ℚ} (hx : val x = some q) : ∃ v : ℚ,
    (∀ w r, Text.White w → Text.Number (Text.general x ++ w :: r) (rnd v) (w :: r)) ∧
    Text.Short v ∧ (∀ u, Text.Short u → |v - q| ≤ |u - q|) ∧ |v - q| ≤ |q| / 200 ∧ (v = 0 ↔ q = 0) := by
  cases x with
  | pinf => cases hx
  | ninf => cases hx
  | nan => cases hx
  | num q' h hb =>
    obtain rfl : q' = q := by simpa [val] using hx
    by_cases hq : q' = 0
    · refine ⟨0, ?_, ⟨0, 0, by norm_num, by simp⟩, ?_, by simp [hq], by simp [hq]⟩
      · intro w r hw
        rw [← Text.float_iff]
        have := C72_literal false ['0'] [] none w r (by simp) (by simp) (by simp) (by simp) hw
        rw [Text.general, if_pos hq]
        refine this.trans ?_
        congr 3
        decide +kernel
      · intro u _
        rw [hq]
        simp
    · obtain ⟨_, _, _, _, _, h1, h2, _, _⟩ := Text.sig_spec hq
      obtain ⟨j, l, hj, hv, hj0⟩ := sig_short hq
      obtain ⟨as, fs, ex, ht, g1, g2, g3, g4, g5⟩ := Text.style_lit (decide (q' < 0)) (Text.sig q').2 (Text.nat_length3 h1 h2)
        (Text.nat_digits _)
      rw [Text.ofDigits_nat] at g5
      have he := Text.sig_err hq
      have hn := fun (j l : Int) (hj : |j| < 1000) => Text.sig_nearest hq l hj
      have htext : Text.general (num q' h hb) = decLit (decide (q' < 0)) as fs ex := by
        rw [Text.general, if_neg hq, ← ht]
        by_cases h0 : q' < 0 <;> simp [h0]
      have hread : ∀ w r, Text.White w →
          Text.Number (Text.general (num q' h hb) ++ w :: r)
            (rnd ((if decide (q' < 0) = true then -1 else 1) * ((Text.sig q').1 * 10 ^ ((Text.sig q').2 - 2)))) (w :: r) := by
        intro w r hw
        rw [← Text.float_iff, htext, ← g5]
        exact C72_literal _ as fs ex w r g1 g2 g3 g4 hw
      generalize ((Text.sig q').1 : ℚ) * 10 ^ ((Text.sig q').2 - 2) = V at *
      have hVpos : 0 < V := by
        rw [hv]
        exact mul_pos (by exact_mod_cast hj0) (Text.ten_pos l)
      by_cases h0 : q' < 0
      · have ha : |q'| = -q' := abs_of_neg h0
        simp only [h0, decide_true, if_true] at hread
        rw [ha] at he hn
        refine ⟨-1 * V, hread, ⟨-j, l, by rwa [abs_neg], by rw [hv]; push_cast; ring⟩, ?_, ?_, ?_⟩
        · rintro u ⟨j', l', hj', rfl⟩
          have := hn (-j') l' (by rwa [abs_neg])
          have e1 : V - -q' = -(-1 * V - q') := by ring
          have e2 : ((-j' : Int) : ℚ) * 10 ^ l' - -q' = -((j' : ℚ) * 10 ^ l' - q') := by push_cast; ring
          rw [e1, e2, abs_neg, abs_neg] at this
          exact this
        · have e1 : V - -q' = -(-1 * V - q') := by ring
          rw [e1, abs_neg] at he
          rw [ha]
          exact he.1
        · constructor
          · intro h; linarith
          · intro h; exact absurd h hq
      · have ha : |q'| = q' := abs_of_nonneg (not_lt.mp h0)
        simp only [h0, decide_false, Bool.false_eq_true, if_false] at hread
        rw [ha] at he hn
        refine ⟨1 * V, hread, ⟨j, l, hj, by rw [hv]; ring⟩, ?_, ?_, ?_⟩
        · rintro u ⟨j', l', hj', rfl⟩
          rw [one_mul]
          exact hn j' l' hj'
        · rw [one_mul, ha]
          exact he.1
        · constructor
          · intro h; linarith
          · intro h; exact absurd h hq

/-- C73: infinities and NaN are shown as such. -/
theorem C73_special {x : Dbl} (hx : val x = none) (w : Char) (r : List Char) (hw : Text.White w) :
    Text.Number (Text.general x ++ w :: r) x (w :: r) := by
  rw [← Text.float_iff]
  replace hw := (Text.white_iff w).mpr hw
  simp only [Text.space, decide_eq_true_eq, List.mem_cons, List.not_mem_nil, or_false] at hw
  cases x with
  | num q h hb => cases hx
  | pinf => rcases hw with rfl | rfl | rfl | rfl | rfl | rfl <;> rfl
  | ninf => rcases hw with rfl | rfl | rfl | rfl | rfl | rfl <;> rfl
  | nan => rcases hw with rfl | rfl | rfl | rfl | rfl | rfl <;> rfl

/-- C73: integers are shown exactly. -/
theorem C73_int (z : Int) (w : Char) (r : List Char) (hw : w.isDigit = false) :
    Text.Integer (Text.dec z ++ w :: r) z (w :: r) := by
  rw [← Text.int_iff]
  have hd := Text.digits_append (cs := r) (Text.nat_digits z.natAbs) hw
  have hne := Text.nat_ne z.natAbs
  unfold Text.dec
  by_cases h0 : z < 0
  · rw [if_pos h0]
    simp only [Text.int, List.cons_append, List.nil_append, Text.sign, hd]
    rw [if_neg hne, if_pos trivial, Text.ofDigits_nat]
    congr 2
    omega
  · rw [if_neg h0, List.nil_append]
    have hs : Text.sign (Text.nat z.natAbs ++ w :: r) = (false, Text.nat z.natAbs ++ w :: r) := by
      cases hn : Text.nat z.natAbs with
      | nil => exact absurd hn hne
      | cons c cs => exact Text.sign_digit _ (Text.nat_digits z.natAbs c (by rw [hn]; exact List.mem_cons_self ..))
    simp only [Text.int, hs, hd]
    rw [if_neg hne, if_neg (by simp), Text.ofDigits_nat]
    congr 2
    omega

/-- C73: no double needs more than ten characters, -/
theorem C73_width (x : Dbl) : (Text.general x).length ≤ 10 := by
  cases x with
  | pinf => decide
  | ninf => decide
  | nan => decide
  | num q h hb =>
    by_cases hq : q = 0
    · rw [Text.general, if_pos hq]; decide
    · obtain ⟨_, _, _, _, _, h1, h2, _, _⟩ := Text.sig_spec hq
      have := Text.style_length (Text.nat_length3 h1 h2) (Text.sig_exp hq h hb)
      rw [Text.general, if_neg hq, List.length_append]
      split
      · simp; omega
      · simp; omega

/-! ## the table -/

/-- C73: the header consists of a rule, the names of the columns and another rule, in columns of the given widths. -/
theorem C73_header (level : Int) : ∃ names, Text.header level =
      (Text.joined "-+-".toList ((Text.widths level).map fun w => List.replicate w '-') ++ "-\n".toList) ++
      (Text.joined " | ".toList names ++ " \n".toList) ++
      (Text.joined "-+-".toList ((Text.widths level).map fun w => List.replicate w '-') ++ "-\n".toList) ∧
    names.map List.length = Text.widths level := by
  unfold Text.header Text.line Text.widths
  by_cases h : 2 ≤ level
  · simp only [if_pos h]
    exact ⟨[" outer".toList, " inner".toList, "  station ".toList, "  complem ".toList, "    rho   ".toList, "  norm p  ".toList,
      "   alpha  ".toList, "sub it".toList], by decide +kernel, by decide +kernel⟩
  · simp only [if_neg h]
    exact ⟨[" outer".toList, "  station ".toList, "  complem ".toList, "    rho   ".toList, "  norm p  ".toList], by decide +kernel, by decide +kernel⟩

/-- the numbers of a line -/
def cellsOf (level outer inner : Int) (a b c d : Dbl) (more : Option (Dbl × Int)) : List (List Char) :=
  match more with
  | some (l, s) => [Text.pad 6 (Text.dec outer), Text.pad 6 (Text.dec inner), Text.pad 10 (Text.general a), Text.pad 10 (Text.general b),
      Text.pad 10 (Text.general c), Text.pad 10 (Text.general d), Text.pad 10 (Text.general l), Text.pad 6 (Text.dec s)]
  | none => if 2 ≤ level then [] else [Text.pad 6 (Text.dec outer), Text.pad 10 (Text.general a), Text.pad 10 (Text.general b),
      Text.pad 10 (Text.general c), Text.pad 10 (Text.general d)]

/-- C73: an iteration is shown in one line: its numbers, right-justified in columns of the same widths as long as the counters
have at most six digits. -/
theorem C73_row {level outer inner : Int} {a b c d : Dbl} {more : Option (Dbl × Int)} (hm : more.isSome = true ↔ 2 ≤ level) :
    Text.row level outer inner a b c d more = Text.joined " | ".toList (cellsOf level outer inner a b c d more) ++ " \n".toList ∧
    (-100000 < outer → outer < 1000000 → -100000 < inner → inner < 1000000 →
      (∀ l s, more = some (l, s) → -100000 < s ∧ s < 1000000) →
      (cellsOf level outer inner a b c d more).map List.length = Text.widths level) := by
  have hg : ∀ x, (Text.pad 10 (Text.general x)).length = 10 := fun x => Text.pad_length (C73_width x)
  cases more with
  | none =>
    have hl : ¬ 2 ≤ level := by simpa using hm
    constructor
    · simp [Text.row, cellsOf, hl, Text.joined, List.intercalate, List.intersperse]
    · intro h1 h2 _ _ _
      simp [cellsOf, hl, Text.widths, hg, Text.pad_length (Text.dec_length h1 h2)]
  | some p =>
    obtain ⟨l, s⟩ := p
    have hl : 2 ≤ level := by simpa using hm
    constructor
    · simp [Text.row, cellsOf, hl, Text.joined, List.intercalate, List.intersperse]
    · intro h1 h2 h3 h4 h5
      obtain ⟨h6, h7⟩ := h5 l s rfl
      simp [cellsOf, hl, Text.widths, hg, Text.pad_length (Text.dec_length h1 h2), Text.pad_length (Text.dec_length h3 h4),
        Text.pad_length (Text.dec_length h6 h7)]

/-- C73 (a defect): a counter with seven digits makes the line longer than the others. -/
theorem C73_overflow {level outer inner : Int} {a b c d : Dbl} {l : Dbl} {s : Int} (hl : 2 ≤ level) (hs : 1000000 ≤ s) :
    Text.lineWidth level + 1 < (Text.row level outer inner a b c d (some (l, s))).length := by
  have hp : ∀ w t, w ≤ (Text.pad w t).length := by
    intro w t; rw [Text.pad, List.length_append, List.length_replicate]; omega
  have h7 : 7 ≤ (Text.pad 6 (Text.dec s)).length := by
    have : ¬ (Text.nat s.natAbs).length ≤ 6 := by
      intro h
      have : s.natAbs < 10 ^ 6 := (Nat.length_toDigits_le_iff (by decide) (by decide)).mp h
      omega
    rw [Text.pad, List.length_append, Text.dec, List.length_append]
    omega
  have h1 := hp 6 (Text.dec outer)
  have h2 := hp 6 (Text.dec inner)
  have h3 := hp 10 (Text.general a)
  have h4 := hp 10 (Text.general b)
  have h5 := hp 10 (Text.general c)
  have h6 := hp 10 (Text.general d)
  have h8 := hp 10 (Text.general l)
  rw [Text.row, Text.lineWidth, if_pos hl, if_pos hl]
  simp only [List.length_append]
  have e1 : " | ".toList.length = 3 := by decide
  have e2 : " \n".toList.length = 2 := by decide
  omega

/-! ## the table of a run -/

section
variable {α : Type} [Scalar α]

/-- what is known about the printed iterations -/
def Sane (e : Env α) (level : Int) (lim : Int) : Ev α → Prop
  | .iter o i _ _ _ _ more => 0 ≤ o ∧ o ≤ 2 * lim ∧ 0 ≤ i ∧ i ≤ lim ∧ (more.isSome = true ↔ 2 ≤ level) ∧
      ∀ l s, more = some (l, s) → ∃ k req, s = (e.qp k req).iter
  | _ => True

theorem sane_other {e : Env α} {level lim : Int} {l : List (Ev α)} (h : tableLines l = []) : ∀ v ∈ l, Sane e level lim v := by
  induction l with
  | nil => simp
  | cons v l ih =>
    cases v with
    | iter => simp [tableLines] at h
    | header => simp [tableLines] at h
    | newline => intro v hv; rcases List.mem_cons.mp hv with rfl | hv; exacts [trivial, ih h v hv]
    | solution => intro v hv; rcases List.mem_cons.mp hv with rfl | hv; exacts [trivial, ih h v hv]
    | msg => intro v hv; rcases List.mem_cons.mp hv with rfl | hv; exacts [trivial, ih h v hv]

theorem run_sane {e : Env α} {o : Obj α} {fuel : Nat} {r : RV × Obj α} {i : RV × Obj α}
    (h : runSolver e fuel o = .ok (some r)) (hi : initializeSolver e o = .ok i) (hok : i.1 = .successfulReturn) :
    ∃ new, r.2.s.out = o.s.out ++ new ∧ ∀ v ∈ new, Sane e o.d.opts.printLevel (max 0 o.d.opts.maxIter) v := by
  obtain ⟨i', hi', hc⟩ := runSolver_inv h
  rw [hi] at hi'
  injection hi' with hi'
  subst hi'
  rcases hc with ⟨hne, _⟩ | ⟨_, hd, hc⟩
  · exact absurd hok hne
  obtain ⟨hopts, _⟩ := Live.start hi hok
  have hout : i.2.s.out = o.s.out ++ (if o.d.opts.printLevel > 0 then [Ev.newline] else []) := by
    obtain ⟨nd, bo, lo, up, sub, y, w, gt, pc, gp, hin⟩ := initializeSolver_ok hi hok
    rw [hin]
  have hpre : ∀ v ∈ (if o.d.opts.printLevel > 0 then [Ev.newline] else ([] : List (Ev α))),
      Sane e o.d.opts.printLevel (max 0 o.d.opts.maxIter) v := by
    apply sane_other
    split <;> rfl
  generalize (if o.d.opts.printLevel > 0 then [Ev.newline] else ([] : List (Ev α))) = pre at hout hpre
  have hsame : ∀ {u : St α} {q : RV × St α} {init : Bool}, solveQP e i.2.d u init = .ok q → q.2.out = u.out := by
    intro u q init hq
    obtain ⟨_, _, _, _, _, _, _, _, _, w, c, m, x, y, a, b, p, _, _, _, hq2⟩ := solveQP_inv hq
    rw [hq2.2]
  rcases hc with hf | ⟨s, hf, hm⟩
  · obtain ⟨gk, q, hq, ⟨_, hr⟩ | ⟨_, _, _, _, _, _, hr⟩⟩ := firstStep_inv hf
    · injection hr with hr
      have e2 : r.2.s = q.2.say (.msg q.1) := congrArg Prod.snd hr
      refine ⟨pre ++ [.msg q.1], ?_, ?_⟩
      · rw [e2, St.say, hsame hq, hout, List.append_assoc]
      · intro v hv
        rcases List.mem_append.mp hv with hv | hv
        · exact hpre v hv
        · rw [List.mem_singleton.mp hv]; trivial
    · cases hr
  · have hent : Enters e o i.2.d s := ⟨i, hi, hok, rfl, hf⟩
    obtain ⟨_, f2, f3⟩ := first_iter hent
    have hso : s.out = o.s.out ++ pre := by
      obtain ⟨gk, q, hq, ⟨hne, hr⟩ | ⟨_, _, _, _, rho, _, hr⟩⟩ := firstStep_inv hf
      · cases hr
      · injection hr with hr
        rw [hr]
        exact (hsame hq).trans hout
    have hlive : Live o.d.opts s 0 0 := by
      rcases Live.first hi hok hf with ⟨s', h, hl, _⟩ | ⟨q, hq, _⟩
      · injection h with h
        subst h
        exact hl
      · cases hq
    rw [← hopts] at hlive hpre
    rw [← hopts]
    refine mainLoop_rule (e := e) (d := i.2.d)
      (fun s' => ∃ t k j new, Live i.2.d.opts s' t k ∧ ((t = 0 ∧ k = 0) ∨ (i.2.d.opts.maxRho <. penalty i.2.d.opts k) = false) ∧
        s'.inner = some j ∧ 0 ≤ j ∧ j ≤ (t : Int) ∧ k ≤ 2 * t ∧ (t : Int) ≤ max 0 i.2.d.opts.maxIter ∧
        (∃ n req, s'.qpIter = some (e.qp n req).iter) ∧ s'.out = o.s.out ++ new ∧
        ∀ v ∈ new, Sane e i.2.d.opts.printLevel (max 0 i.2.d.opts.maxIter) v)
      (fun q => ∃ new, q.2.out = o.s.out ++ new ∧ ∀ v ∈ new, Sane e i.2.d.opts.printLevel (max 0 i.2.d.opts.maxIter) v) ?_
      fuel s (r.1, r.2.s) ⟨0, 0, 0, pre, hlive, Or.inl ⟨rfl, rfl⟩, f2, le_refl _, le_refl _, le_refl _, by simp,
        ⟨_, f3⟩, hso, hpre⟩ hm
    rintro u v ⟨t, k, j, new, g1, g2, g3, g4, g5, g6, g7, ⟨n, req, g8⟩, g9, g10⟩ hp
    obtain ⟨s1, h1, h2⟩ := pass_rest hp
    have h3 : ∃ l, s1.out = u.out ++ l ∧ ∀ v ∈ l, Sane e i.2.d.opts.printLevel (max 0 i.2.d.opts.maxIter) v := by
      obtain ⟨x', a, b, c, pp, l, st', t', j', _, hj', _, _, hpp, hpr, _, rfl⟩ := advance_inv h1
      subst hpp
      refine ⟨l, rfl, ?_⟩
      obtain ⟨l', hl', hc⟩ := printIteration_inv hpr
      have hll : l = l' := by
        have := congrArg St.out hl'
        simpa using this
      subst hll
      rcases hc with ⟨_, rfl⟩ | ⟨_, j2, hj2, ⟨_, _, rfl⟩ | ⟨_, o', st, phi, rho, np, more, ho', _, _, _, _, hmore, rfl⟩⟩
      · simp
      · simp
      · have e1 : j2 = j := by
          have : u.inner = some j2 := hj2
          rw [g3] at this; injection this with this; exact this.symm
        have e2 : o' = (k : Int) := by
          have : u.outer = some o' := ho'
          rw [g1.outer] at this; injection this with this; exact this.symm
        intro v hv
        rcases List.mem_append.mp hv with hv | hv
        · split at hv
          · rw [List.mem_singleton.mp hv]; trivial
          · simp at hv
        · rw [List.mem_singleton.mp hv]
          refine ⟨by omega, by omega, by omega, by omega, ?_⟩
          rcases iterMore_inv hmore with ⟨m1, rfl⟩ | ⟨m1, a', q', m2, m3, rfl⟩
          · refine ⟨by simp; omega, by simp⟩
          · refine ⟨by simp [m1], ?_⟩
            rintro l s ⟨⟩
            have : u.qpIter = some q' := m3
            rw [g8] at this
            injection this with this
            exact ⟨n, req, this.symm⟩
    obtain ⟨l, h4, h5⟩ := h3
    refine ⟨?_, ?_⟩
    · intro s' hs'
      subst hs'
      obtain ⟨_, l', h6, h7⟩ := h2 s' (Or.inl rfl)
      rcases g1.pass g2 hp with ⟨s'', k', hr', l1, k1, k2, _, k3, r'⟩ | ⟨q, _, hr', _⟩
      · injection hr' with hr'
        subst hr'
        obtain ⟨_, _, ⟨s'', hr', _, hc⟩ | ⟨_, _, ⟨⟩, _⟩ | ⟨_, _, ⟨⟩, _⟩⟩ := pass_out g1.outer g3 hp
        injection hr' with hr'
        subst hr'
        have key : ∃ j', s'.inner = some j' ∧ 0 ≤ j' ∧ j' ≤ ((t + 1 : Nat) : Int) := by
          rcases hc with ⟨_, c2⟩ | ⟨_, _, _, c2⟩
          · exact ⟨_, c2, by omega, by push_cast; omega⟩
          · exact ⟨_, c2, by omega, by push_cast; omega⟩
        obtain ⟨j', a1, a2, a3⟩ := key
        obtain ⟨_, req', b2⟩ := pass_iter hp
        refine ⟨t + 1, k', j', new ++ l ++ l', l1, Or.inr r', a1, a2, a3, by omega, by omega, ⟨_, req', b2⟩, ?_, ?_⟩
        · rw [h6, h4, g9]; simp
        · intro v hv
          rcases List.mem_append.mp hv with hv | hv
          · rcases List.mem_append.mp hv with hv | hv
            · exact g10 v hv
            · exact h5 v hv
          · exact sane_other h7 v hv
      · cases hr'
    · intro q hq
      subst hq
      obtain ⟨_, l', h6, h7⟩ := h2 q.2 (Or.inr ⟨q.1, rfl⟩)
      refine ⟨new ++ l ++ l', by rw [h6, h4, g9]; simp, ?_⟩
      intro v hv
      rcases List.mem_append.mp hv with hv | hv
      · rcases List.mem_append.mp hv with hv | hv
        · exact g10 v hv
        · exact h5 v hv
      · exact sane_other h7 v hv

end

theorem lines_append {w : Nat} {s t : List Char} (hs : Text.Lines w s) (ht : Text.Lines w t) : Text.Lines w (s ++ t) := by
  obtain ⟨a, rfl, ha⟩ := hs
  obtain ⟨b, rfl, hb⟩ := ht
  refine ⟨a ++ b, by simp, ?_⟩
  intro l hl
  rcases List.mem_append.mp hl with hl | hl
  · exact ha l hl
  · exact hb l hl

theorem lines_flatMap {β : Type} {w : Nat} {l : List β} {f : β → List Char} (h : ∀ v ∈ l, Text.Lines w (f v)) :
    Text.Lines w (l.flatMap f) := by
  induction l with
  | nil => exact ⟨[], rfl, by simp⟩
  | cons v l ih =>
    rw [List.flatMap_cons]
    exact lines_append (h v (List.mem_cons_self ..)) (ih fun v hv => h v (List.mem_cons_of_mem _ hv))

theorem digit_nl {c : Char} (h : c.isDigit = true) : c ≠ '\n' := by
  rintro rfl
  exact absurd h (by decide)

theorem nat_nl (n : Nat) : '\n' ∉ Text.nat n := fun h => digit_nl (Text.nat_digits n _ h) rfl

theorem dec_nl (z : Int) : '\n' ∉ Text.dec z := by
  unfold Text.dec
  intro h
  rcases List.mem_append.mp h with h | h
  · split at h <;> simp at h
  · exact nat_nl _ h

theorem general_nl (x : Dbl) : '\n' ∉ Text.general x := by
  cases x with
  | pinf => decide
  | ninf => decide
  | nan => decide
  | num q h hb =>
    by_cases hq : q = 0
    · rw [Text.general, if_pos hq]; decide
    · obtain ⟨_, _, _, _, _, h1, h2, _, _⟩ := Text.sig_spec hq
      obtain ⟨as, fs, ex, ht, _, g2, g3, g4, _⟩ := Text.style_lit (decide (q < 0)) (Text.sig q).2 (Text.nat_length3 h1 h2)
        (Text.nat_digits _)
      have htext : Text.general (num q h hb) = decLit (decide (q < 0)) as fs ex := by
        rw [Text.general, if_neg hq, ← ht]
        by_cases h0 : q < 0 <;> simp [h0]
      rw [htext, decLit]
      intro hn
      simp only [List.mem_append] at hn
      rcases hn with ((hn | hn) | hn) | hn
      · split at hn <;> simp at hn
      · exact digit_nl (g2 _ hn) rfl
      · split at hn
        · simp at hn
        · rcases List.mem_cons.mp hn with hn | hn
          · exact absurd hn (by decide)
          · exact digit_nl (g3 _ hn) rfl
      · cases ex with
        | none => simp [expLit] at hn
        | some p =>
          obtain ⟨m, es⟩ := p
          rw [expLit] at hn
          rcases List.mem_cons.mp hn with hn | hn
          · exact absurd hn (by decide)
          · rcases List.mem_append.mp hn with hn | hn
            · split at hn <;> simp at hn
            · exact digit_nl ((g4 m es rfl).2 _ hn) rfl

theorem pad_nl {w : Nat} {s : List Char} (h : '\n' ∉ s) : '\n' ∉ Text.pad w s := by
  intro hn
  rw [Text.pad] at hn
  rcases List.mem_append.mp hn with hn | hn
  · exact absurd (List.mem_replicate.mp hn).2 (by decide)
  · exact h hn

theorem row_lines {level outer inner : Int} {a b c d : Dbl} {more : Option (Dbl × Int)} (hm : more.isSome = true ↔ 2 ≤ level)
    (h1 : -100000 < outer) (h2 : outer < 1000000) (h3 : -100000 < inner) (h4 : inner < 1000000)
    (h5 : ∀ l s, more = some (l, s) → -100000 < s ∧ s < 1000000) :
    Text.Lines (Text.lineWidth level) (Text.row level outer inner a b c d more) := by
  have hg : ∀ x, (Text.pad 10 (Text.general x)).length = 10 := fun x => Text.pad_length (C73_width x)
  have ng : ∀ x, '\n' ∉ Text.pad 10 (Text.general x) := fun x => pad_nl (general_nl x)
  have nd : ∀ z, '\n' ∉ Text.pad 6 (Text.dec z) := fun x => pad_nl (dec_nl x)
  rw [(C73_row hm).1, show " \n".toList = [' '] ++ ['\n'] by decide, ← List.append_assoc]
  refine ⟨[_], (by rw [List.flatMap_singleton]), ?_⟩
  intro l hl
  rw [List.mem_singleton] at hl
  subst hl
  cases more with
  | none =>
    have hl : ¬ 2 ≤ level := by simpa using hm
    simp [cellsOf, hl, Text.joined, List.intercalate, List.intersperse, Text.lineWidth, hg, ng, nd,
      Text.pad_length (Text.dec_length h1 h2)]
  | some p =>
    obtain ⟨l, s⟩ := p
    have hl : 2 ≤ level := by simpa using hm
    obtain ⟨h6, h7⟩ := h5 l s rfl
    simp [cellsOf, hl, Text.joined, List.intercalate, List.intersperse, Text.lineWidth, hg, ng, nd,
      Text.pad_length (Text.dec_length h1 h2), Text.pad_length (Text.dec_length h3 h4), Text.pad_length (Text.dec_length h6 h7)]

theorem header_lines (level : Int) : Text.Lines (Text.lineWidth level) (Text.header level) := by
  unfold Text.header Text.line Text.lineWidth
  by_cases h : 2 ≤ level
  · simp only [if_pos h]
    exact ⟨["-------+--------+------------+------------+------------+------------+------------+--------".toList,
      " outer |  inner |   station  |   complem  |     rho    |   norm p   |    alpha   | sub it ".toList,
      "-------+--------+------------+------------+------------+------------+------------+--------".toList], by decide +kernel, by decide +kernel⟩
  · simp only [if_neg h]
    exact ⟨["-------+------------+------------+------------+------------".toList,
      " outer |   station  |   complem  |     rho    |   norm p   ".toList,
      "-------+------------+------------+------------+------------".toList], by decide +kernel, by decide +kernel⟩

/-- C73: if the iteration limit is below 500000 and the QP solver needs less than a million iterations per call, all lines of the
iteration table of a run have the same width. -/
theorem C73_run {e : Env Dbl} {o : Obj Dbl} {fuel : Nat} {r : RV × Obj Dbl} {i : RV × Obj Dbl}
    (h : runSolver e fuel o = .ok (some r)) (hi : initializeSolver e o = .ok i) (hok : i.1 = .successfulReturn)
    (hm : o.d.opts.maxIter < 500000) (hq : ∀ k req, -100000 < (e.qp k req).iter ∧ (e.qp k req).iter < 1000000) :
    ∃ new, r.2.s.out = o.s.out ++ new ∧
      Text.Lines (Text.lineWidth o.d.opts.printLevel) (Text.console o.d.opts.printLevel (tableLines new)) := by
  obtain ⟨new, h1, h2⟩ := run_sane h hi hok
  refine ⟨new, h1, ?_⟩
  have key : ∀ l : List (Ev Dbl), (∀ v ∈ l, Sane e o.d.opts.printLevel (max 0 o.d.opts.maxIter) v) → ∀ v ∈ tableLines l,
      Text.Lines (Text.lineWidth o.d.opts.printLevel) (Text.render o.d.opts.printLevel v) := by
    intro l
    induction l with
    | nil => simp [tableLines]
    | cons v l ih =>
      intro hl
      have ih := ih fun v hv => hl v (List.mem_cons_of_mem _ hv)
      have hv := hl v (List.mem_cons_self ..)
      cases v with
      | newline => exact ih
      | solution t => exact ih
      | msg r => exact ih
      | header =>
        intro v hv
        rcases List.mem_cons.mp hv with rfl | hv
        · exact header_lines _
        · exact ih v hv
      | iter o' i' a b c d more =>
        obtain ⟨g1, g2, g3, g4, g5, g6⟩ := hv
        intro v hv
        rcases List.mem_cons.mp hv with rfl | hv
        · refine row_lines g5 (by omega) (by omega) (by omega) (by omega) ?_
          intro l s hls
          obtain ⟨k, req, rfl⟩ := g6 l s hls
          exact hq k req
        · exact ih v hv
  exact lines_flatMap (key new h2)

/-! ## messages -/

/-- C73: the message of a failed call is shown as an error, on a line of its own; two different codes are shown differently.  The message
for an invalid `etaDynamicPenalty` is the only one that does not end its line, /repo/src/MessageHandler.cpp:175-177. -/
theorem C73_message (level : Int) (r : RV) (hr : r ≠ .successfulReturn) :
    (∃ t, Text.render level (.msg r) = "ERROR: ".toList ++ t ++ (if r = .invalidEtaValue then [] else ['\n']) ∧ t ≠ [] ∧ '\n' ∉ t) ∧
    ∀ r', Text.render level (.msg r') = Text.render level (.msg r) → r' = r := by
  constructor
  · have key : ∀ a ∈ RV.all, a ≠ .successfulReturn → (printMessage a .error).2.toList =
        "ERROR: ".toList ++ (msgText a).toList.filter (· ≠ '\n') ++ (if a = .invalidEtaValue then [] else ['\n']) ∧
          (msgText a).toList.filter (· ≠ '\n') ≠ [] := by decide +kernel
    exact ⟨(msgText r).toList.filter (· ≠ '\n'), (key r r.mem_all hr).1, (key r r.mem_all hr).2, by simp⟩
  · intro r' h
    exact (C42_messages_distinct r' r .error).1.1 (String.toList_injective h)

/-- C73: the text for a file that cannot be read -/
example : Text.render 2 (.msg .unableToReadFile) = "ERROR: Unable to read file.\n".toList := by decide +kernel

/-! ## printing of arrays -/

/-- C73: a number printed with `k` decimals is read as the double next to its value rounded to `k` decimals, which differs by at
most half a unit of the last one. -/
theorem C73_places {k : Nat} (hk : 0 < k) (x : Dbl) (w : Char) (r : List Char) (hw : Text.White w) :
    (∀ q, val x = some q → Text.Number (Text.places k x ++ w :: r) (rnd (Text.roundTo k q)) (w :: r) ∧
      |Text.roundTo k q - q| ≤ 1 / (2 * 10 ^ k)) ∧
    (x = .pinf → Text.places k x = "inf".toList) ∧ (x = .ninf → Text.places k x = "-inf".toList) ∧
    (x = .nan → Text.places k x = "nan".toList) := by
  refine ⟨?_, by rintro rfl; rfl, by rintro rfl; rfl, by rintro rfl; rfl⟩
  intro q hq
  cases x with
  | pinf => cases hq
  | ninf => cases hq
  | nan => cases hq
  | num p h hb =>
    injection hq with hq
    subst hq
    have hpos : (0 : ℚ) < 10 ^ k := pow_pos (by norm_num) k
    have hposN : 0 < 10 ^ k := Nat.pow_pos (by norm_num)
    refine ⟨?_, ?_⟩
    · set a := (Dbl.nearest (p * 10 ^ k)).natAbs with ha
      have hlen : (Text.nat (a % 10 ^ k)).length ≤ k := Text.nat_length_le hk (Nat.mod_lt _ hposN)
      have hfl : (List.replicate (k - (Text.nat (a % 10 ^ k)).length) '0' ++ Text.nat (a % 10 ^ k)).length = k := by
        simp; omega
      have hfne : List.replicate (k - (Text.nat (a % 10 ^ k)).length) '0' ++ Text.nat (a % 10 ^ k) ≠ [] := by
        intro h0; rw [h0] at hfl; simp at hfl; omega
      have htext : Text.places k (num p h hb) = decLit (decide (p < 0)) (Text.nat (a / 10 ^ k))
          (List.replicate (k - (Text.nat (a % 10 ^ k)).length) '0' ++ Text.nat (a % 10 ^ k)) none := by
        rw [Text.places, decLit, if_neg hfne, expLit]
        by_cases h0 : p < 0 <;> simp [h0, ha]
      have hval : decVal (decide (p < 0)) (Text.nat (a / 10 ^ k))
          (List.replicate (k - (Text.nat (a % 10 ^ k)).length) '0' ++ Text.nat (a % 10 ^ k)) none = Text.roundTo k p := by
        have h1 : Nat.ofDigitChars 10 (Text.nat (a / 10 ^ k) ++
            (List.replicate (k - (Text.nat (a % 10 ^ k)).length) '0' ++ Text.nat (a % 10 ^ k))) 0 = a := by
          have := Nat.ofDigitChars_append (b := 10) (l := Text.nat (a / 10 ^ k))
            (m := List.replicate (k - (Text.nat (a % 10 ^ k)).length) '0' ++ Text.nat (a % 10 ^ k)) (init := 0)
          rw [this, Nat.ofDigitChars_eq_ofDigitChars_zero, hfl]
          have e1 : Nat.ofDigitChars 10 (Text.nat (a / 10 ^ k)) 0 = a / 10 ^ k := Text.ofDigits_nat _
          have e2 : Nat.ofDigitChars 10 (List.replicate (k - (Text.nat (a % 10 ^ k)).length) '0' ++ Text.nat (a % 10 ^ k)) 0 = a % 10 ^ k :=
            (Text.ofDigits_zeros _ _).trans (Text.ofDigits_nat _)
          rw [e1, e2]
          exact Nat.div_add_mod a (10 ^ k)
        rw [decVal, h1, hfl, expVal, mul_one, Text.roundTo]
        congr 1
        have hcast : (a : ℚ) = |((Dbl.nearest (p * 10 ^ k) : Int) : ℚ)| := by
          rw [ha, Nat.cast_natAbs, Int.cast_abs]
        rw [hcast]
        by_cases h0 : p < 0
        · have : Dbl.nearest (p * 10 ^ k) ≤ 0 := by
            have := Text.nearest_mono (show p * 10 ^ k ≤ ((0 : Int) : ℚ) by simp; nlinarith)
            rwa [nearest_int] at this
          have : ((Dbl.nearest (p * 10 ^ k) : Int) : ℚ) ≤ 0 := by exact_mod_cast this
          rw [abs_of_nonpos this]; simp [h0]
        · have : 0 ≤ Dbl.nearest (p * 10 ^ k) := by
            have := Text.nearest_mono (show ((0 : Int) : ℚ) ≤ p * 10 ^ k by rw [Int.cast_zero]; exact mul_nonneg (not_lt.mp h0) hpos.le)
            rwa [nearest_int] at this
          have : (0 : ℚ) ≤ ((Dbl.nearest (p * 10 ^ k) : Int) : ℚ) := by exact_mod_cast this
          rw [abs_of_nonneg this]; simp [h0]
      rw [← Text.float_iff, htext, C72_literal _ _ _ _ w r (Text.nat_ne _) (Text.nat_digits _) ?_ (by rintro m es ⟨⟩) hw, hval]
      intro c hc
      rcases List.mem_append.mp hc with hc | hc
      · rw [(List.mem_replicate.mp hc).2]; decide
      · exact Text.nat_digits _ c hc
    · have h1 := nearest_err (p * 10 ^ k)
      rw [Text.roundTo, show (Dbl.nearest (p * 10 ^ k) : ℚ) / 10 ^ k - p = ((Dbl.nearest (p * 10 ^ k) : ℚ) - p * 10 ^ k) / 10 ^ k by
        field_simp, abs_div, abs_of_pos hpos, div_le_div_iff₀ hpos (by linarith)]
      nlinarith

theorem prints_ok {n : Nat} {f : Nat → M (List Char)} {g : Nat → List Char} (h : ∀ i < n, f i = .ok (g i)) :
    Text.prints n f = .ok ((List.range n).flatMap g) :=
  loop_eq (fun i => (List.range i).flatMap g) n _ [] (by simp) (by
    intro i hi
    rw [h i hi, ok_bind, List.range_succ, List.flatMap_append, List.flatMap_singleton])

/-- C73: a printed matrix has one line for each row, with its entries in their order. -/
theorem C73_matrix {a : List Dbl} {m n : Nat} (h : m * n ≤ a.length) (name : List Char) :
    Text.printMatrix (some a) m n name = .ok ("Printing matrix ".toList ++ name ++ ":\n".toList ++
      ((List.range m).flatMap fun i => ((List.range n).flatMap fun j => Text.places 5 (a.getD (i * n + j) .nan) ++ [' ']) ++ ['\n']) ++ ['\n']) := by
  have h1 : ∀ i < m, ∀ j < n, i * n + j < a.length := fun i hi j hj => lt_of_lt_of_le (idx_lt hi hj) h
  have h2 : ∀ i < m, Text.prints n (fun j => do
      let a ← deref (some a)
      let v ← rd a (i * n + j)
      .ok (Text.places 5 v ++ [' '])) = .ok ((List.range n).flatMap fun j => Text.places 5 (a.getD (i * n + j) .nan) ++ [' ']) := by
    intro i hi
    refine prints_ok fun j hj => ?_
    have hlt := h1 i hi j hj
    have hv : a[i * n + j]? = some a[i * n + j] := List.getElem?_eq_getElem hlt
    rw [deref, ok_bind, rd_some hv, ok_bind, List.getD_eq_getElem?_getD, hv]
    rfl
  rw [Text.printMatrix, prints_ok (fun i hi => by rw [h2 i hi, ok_bind])]
  rfl

/-- C73: the same for integers. -/
theorem C73_matrix_int {a : List Int} {m n : Nat} (h : m * n ≤ a.length) (name : List Char) :
    Text.printMatrixInt (some a) m n name = .ok ("Printing matrix ".toList ++ name ++ ":\n".toList ++
      ((List.range m).flatMap fun i => ((List.range n).flatMap fun j => Text.dec (a.getD (i * n + j) 0) ++ [' ']) ++ ['\n']) ++ ['\n']) := by
  have h1 : ∀ i < m, ∀ j < n, i * n + j < a.length := fun i hi j hj => lt_of_lt_of_le (idx_lt hi hj) h
  have h2 : ∀ i < m, Text.prints n (fun j => do
      let a ← deref (some a)
      let v ← rd a (i * n + j)
      .ok (Text.dec v ++ [' '])) = .ok ((List.range n).flatMap fun j => Text.dec (a.getD (i * n + j) 0) ++ [' ']) := by
    intro i hi
    refine prints_ok fun j hj => ?_
    have hlt := h1 i hi j hj
    have hv : a[i * n + j]? = some a[i * n + j] := List.getElem?_eq_getElem hlt
    rw [deref, ok_bind, rd_some hv, ok_bind, List.getD_eq_getElem?_getD, hv]
    rfl
  rw [Text.printMatrixInt, prints_ok (fun i hi => by rw [h2 i hi, ok_bind])]
  rfl

/-- C73: a printed sparse matrix shows the same text as its dense form; nothing is printed for a matrix without entries; a row index outside the matrix leads to an access through the null pointer. -/
theorem C73_csc (S : CSC Dbl) (name : List Char) :
    (S.m = 0 ∨ S.n = 0 → Text.printMatrixCsc (some S) name = .ok []) ∧
    (0 < S.m → 0 < S.n → S.Valid → ∃ d, (∀ r < S.m, ∀ c < S.n, S.LastIs r c (d.getD (r * S.n + c) .nan)) ∧
      Text.printMatrixCsc (some S) name = Text.printMatrix (some d) S.m S.n name ∧
      ∃ t, Text.printMatrixCsc (some S) name = .ok t) ∧
    (0 < S.m → 0 < S.n → S.ValidPtr → (∃ k < S.P S.n, S.i.getD k 0 < 0 ∨ (S.m : Int) ≤ S.i.getD k 0) →
      Text.printMatrixCsc (some S) name = .error .null) ∧
    Text.printMatrixCsc none name = .error .null := by
  refine ⟨?_, ?_, ?_, rfl⟩
  · intro h
    rw [Text.printMatrixCsc, deref, ok_bind, if_pos]
    rcases h with h | h <;> simp [h]
  · intro h1 h2 hv
    obtain ⟨d, hd, hl, hg⟩ := C09_faithful S hv
    have hp := Nat.mul_pos h1 h2
    have hm : Text.printMatrixCsc (some S) name = Text.printMatrix (some d) S.m S.n name := by
      rw [Text.printMatrixCsc, deref, ok_bind, if_neg (by omega), hd, ok_bind]
    refine ⟨d, ?_, hm, _, hm.trans (C73_matrix hl.ge name)⟩
    intro r hr c hc
    obtain ⟨v, h3, h4⟩ := hg r hr c hc
    rw [List.getD_eq_getElem?_getD, h3]
    exact h4
  · intro h1 h2 hv hbad
    have hn := (C09_reject S hv).2.mpr hbad
    have hp := Nat.mul_pos h1 h2
    rw [Text.printMatrixCsc, deref, ok_bind, if_neg (by omega), hn, ok_bind, Text.printMatrix]
    obtain ⟨m, hm⟩ : ∃ m, S.m = m + 1 := ⟨S.m - 1, by omega⟩
    obtain ⟨n, hn⟩ : ∃ n, S.n = n + 1 := ⟨S.n - 1, by omega⟩
    have fail : ∀ (n : Nat) (f : Nat → M (List Char)), f 0 = .error .null → Text.prints (n + 1) f = .error .null := by
      intro n f hf
      unfold Text.prints
      induction n with
      | zero => simp only [loop, hf]; rfl
      | succ n ih => rw [loop, ih]; rfl
    rw [hm, hn, fail m _ (by rw [fail n _ rfl]; rfl)]
    rfl

/-- C73: a printed step shows the four numbers of each component, a printed box the three. -/
theorem C73_step {xk pk xn lb ub : List Dbl} (alpha : Dbl) {n : Nat} (h1 : n ≤ xk.length) (h2 : n ≤ pk.length) (h3 : n ≤ xn.length)
    (h4 : n ≤ lb.length) (h5 : n ≤ ub.length) :
    Text.printStep (some xk) (some pk) (some xn) alpha n = .ok ("Printing Step:\n".toList ++ ((List.range n).flatMap fun i =>
      Text.places 2 (xk.getD i .nan) ++ " + ".toList ++ Text.places 2 alpha ++ " * ".toList ++ Text.places 2 (pk.getD i .nan) ++
        " = ".toList ++ Text.places 2 (xn.getD i .nan) ++ " \n".toList) ++ ['\n']) ∧
    Text.printBounds (some lb) (some xk) (some ub) n = .ok ("Printing box constraints:\n".toList ++ ((List.range n).flatMap fun i =>
      Text.places 2 (lb.getD i .nan) ++ " <= ".toList ++ Text.places 2 (xk.getD i .nan) ++ " <= ".toList ++
        Text.places 2 (ub.getD i .nan) ++ " \n".toList) ++ ['\n']) := by
  have key : ∀ {l : List Dbl} {i : Nat}, n ≤ l.length → i < n → rd l i = .ok (l.getD i .nan) := by
    intro l i hl hi
    have hv : l[i]? = some l[i] := List.getElem?_eq_getElem (by omega)
    rw [rd_some hv, List.getD_eq_getElem?_getD, hv]
    rfl
  constructor
  · rw [Text.printStep, prints_ok (fun i hi => by simp only [deref, ok_bind, key h1 hi, key h2 hi, key h3 hi]; rfl)]
    rfl
  · rw [Text.printBounds, prints_ok (fun i hi => by simp only [deref, ok_bind, key h4 hi, key h1 hi, key h5 hi]; rfl)]
    rfl

namespace ExD

/-- the text printed by a run -/
def shownText (level : Int) : Option (List Char) :=
  match loadDense env2 (Obj.new { opts with printLevel := level } 2 0 1) args2 with
  | .ok (.successfulReturn, o1) =>
    match runSolver env2 10 o1 with
    | .ok (some (_, o')) => some (Text.console level o'.s.out)
    | _ => none
  | _ => none

/-- C73: the text of a run -/
example : shownText 1 = some ("\n-------+------------+------------+------------+------------\n".toList ++
    " outer |   station  |   complem  |     rho    |   norm p   \n".toList ++
    "-------+------------+------------+------------+------------\n".toList ++
    "     0 |   2.78e-17 |       0.04 |       0.01 |          2 \n".toList ++
    "     1 |   2.29e-17 |          0 |       0.02 |          1 \n".toList ++
    "\n\n#################################\n## S-Stationary solution found ##\n#################################\n\n".toList) := by
  decide +kernel

/-- C73: the assumptions of `C73_run` are met by this run -/
example : ∃ (o : Obj Dbl) (i r : RV × Obj Dbl), runSolver env2 10 o = .ok (some r) ∧ initializeSolver env2 o = .ok i ∧
    i.1 = .successfulReturn ∧ o.d.opts.maxIter < 500000 ∧ (∀ k req, -100000 < (env2.qp k req).iter ∧ (env2.qp k req).iter < 1000000) ∧
    2 ≤ o.d.opts.printLevel ∧ 2 ≤ (tableLines r.2.s.out).length := by
  have h : (match loadDense env2 (Obj.new { opts with printLevel := 2 } 2 0 1) args2 with
    | .ok (_, o) => match runSolver env2 10 o, initializeSolver env2 o with
      | .ok (some r), .ok i => decide (i.1 = .successfulReturn) && decide (o.d.opts.maxIter < 500000) && decide (2 ≤ o.d.opts.printLevel) &&
          decide (2 ≤ (tableLines r.2.s.out).length)
      | _, _ => false
    | _ => false) = true := by decide +kernel
  split at h
  · rename_i o _
    split at h
    · rename_i r i hr hi
      simp only [Bool.and_eq_true, decide_eq_true_eq] at h
      refine ⟨o, i, r, hr, hi, h.1.1.1, h.1.1.2, ?_, h.1.2, h.2⟩
      intro k req
      change -100000 < (if k = 0 then _ else _ : Resp Dbl).iter ∧ (if k = 0 then _ else _ : Resp Dbl).iter < 1000000
      split <;> exact ⟨by decide, by decide⟩
    · cases h
  · cases h

/-- C73: ten characters are needed -/
example : Text.general (rnd (-2.226e-308)) = "-2.23e-308".toList ∧ Text.general (rnd 1e6) = "1e+06".toList ∧
    Text.general (rnd 999.6) = "1e+03".toList ∧ Text.general (rnd 0.00012345) = "0.000123".toList ∧
    Text.general (rnd 0.00001) = "1e-05".toList ∧ Text.general (rnd 100) = "100".toList := by decide +kernel

/-- C73: arrays -/
example : Text.printMatrix (some [rnd 1, rnd (-0.5), rnd (2 / 3), .pinf]) 2 2 "A".toList =
    .ok "Printing matrix A:\n1.00000 -0.50000 \n0.66667 inf \n\n".toList ∧
    Text.printMatrix (some [rnd 1]) 1 2 "A".toList = .error .oob ∧
    Text.printStep (some [rnd 1]) (some [rnd (-2)]) (some [rnd 0]) (rnd 0.5) 1 =
      .ok "Printing Step:\n1.00 + 0.50 * -2.00 = 0.00 \n\n".toList := by decide +kernel

end ExD

end LCQ
