import Verif.Lemmas.FromFile

/-!
# C76: the example program solve_lcqp_from_file
-/

namespace LCQ
namespace FromFile
open Text

/-- C76: the sequence of tokens computed for a text is the one of the grammar, and reading the tokens is reading the text. -/
theorem C76_tokens (t : List Char) : Toks Number t (tokens (t.length + 1) t) ∧
    ∀ (b : List Dbl) (n : Nat), LCQ.readFile (file (some (some t))) b n = Text.readFile (some t) b n := by
  have h := (ftoks_iff float_iff t _).mpr (tokens_ftoks _ t (Nat.lt_succ_self _))
  exact ⟨h, fun b n => ((C72_read h b n).1).symm⟩

/-- C76: the lines are counted correctly, with or without a newline at the end. -/
theorem C76_lines (t : List Char) : lines (some (some t)) = lineCount t ∧ lines (some none) = 0 ∧ lines none = 0 :=
  ⟨lines_text t, rfl, rfl⟩

example : lineCount ['1', '\n', '2'] = 2 ∧ lineCount ['1', '\n', '2', '\n'] = 2 ∧ lineCount ['\n', '\n'] = 2 ∧ lineCount [] = 0 := by
  decide

/-- C76: a column has as many lines as numbers, and these numbers are read. -/
theorem C76_column {t : List Char} {v : List Dbl} (h : Column t v) : lineCount t = v.length ∧ Toks Number t (v.map Tok.num) :=
  ⟨h.lines, (ftoks_iff float_iff t _).mpr h.ftoks.1⟩

/-- a line of a data file: a decimal literal, or infinity in lower or upper case, possibly with a minus -/
inductive Line : List Char → Dbl → Prop where
  /-- decimal -/
  | dec (neg : Bool) (ds fs : List Char) (ex : Option (Bool × List Char)) (hd : ds ≠ []) (hds : ∀ c ∈ ds, c.isDigit = true)
      (hfs : ∀ c ∈ fs, c.isDigit = true) (hex : ∀ m es, ex = some (m, es) → es ≠ [] ∧ ∀ c ∈ es, c.isDigit = true) :
      Line (decLit neg ds fs ex) (Dbl.rnd (decVal neg ds fs ex))
  /-- infinity -/
  | inf (neg : Bool) (w : List Char) (hw : w.map Char.toLower = ['i', 'n', 'f']) :
      Line ((if neg then ['-'] else []) ++ w) (if neg then .ninf else .pinf)

theorem digit_noWhite {c : Char} (hc : c.isDigit = true) : ¬ White c := by
  intro hw
  rw [Char.isDigit, Bool.and_eq_true, decide_eq_true_eq, decide_eq_true_eq] at hc
  have h1 : 48 ≤ c.toNat := hc.1
  unfold White at hw
  omega

theorem Line.ok {l : List Char} {v : Dbl} (h : Line l v) (t : List Char) :
    l ≠ [] ∧ (∀ c ∈ l, ¬ White c) ∧ Number (l ++ '\n' :: t) v ('\n' :: t) := by
  cases h with
  | dec neg ds fs ex hd hds hfs hex =>
    refine ⟨?_, ?_, (float_iff _ _ _).mp (C72_literal neg ds fs ex '\n' t hd hds hfs hex (by decide))⟩
    · intro h
      simp only [decLit, List.append_eq_nil_iff] at h
      exact hd h.1.1.2
    · intro c hc
      simp only [decLit, List.mem_append] at hc
      rcases hc with ((hc | hc) | hc) | hc
      · split at hc
        · rw [List.mem_singleton] at hc; subst hc; decide
        · cases hc
      · exact digit_noWhite (hds c hc)
      · split at hc
        · cases hc
        · rcases List.mem_cons.mp hc with rfl | hc
          · decide
          · exact digit_noWhite (hfs c hc)
      · cases ex with
        | none => cases hc
        | some x =>
          obtain ⟨m, es⟩ := x
          simp only [expLit, List.mem_cons, List.mem_append] at hc
          rcases hc with rfl | hc | hc
          · decide
          · cases m
            · rw [if_neg (by simp), List.mem_singleton] at hc; subst hc; decide
            · rw [if_pos rfl, List.mem_singleton] at hc; subst hc; decide
          · exact digit_noWhite ((hex m es rfl).2 c hc)
  | inf neg w hw =>
    have hwn : w ≠ [] := by rintro rfl; cases hw
    have hI : Infin (w ++ '\n' :: t) ('\n' :: t) := .inl ⟨⟨w, rfl, hw⟩, show some ('\n').toLower ≠ some 'i' by decide⟩
    have hhead : ∀ c, w.head? = some c → c.toLower = 'i' := by
      intro c hc
      have := congrArg List.head? hw
      rw [List.head?_map, hc] at this
      simpa using this
    refine ⟨by simp [hwn], ?_, ?_⟩
    · intro c hc
      rw [List.mem_append] at hc
      rcases hc with hc | hc
      · split at hc
        · rw [List.mem_singleton] at hc; subst hc; decide
        · cases hc
      · intro hwc
        have hm : c.toLower ∈ ['i', 'n', 'f'] := by rw [← hw]; exact List.mem_map_of_mem hc
        have hsp := (white_iff c).mpr hwc
        simp only [space, decide_eq_true_eq, List.mem_cons, List.not_mem_nil, or_false] at hsp
        rcases hsp with rfl | rfl | rfl | rfl | rfl | rfl <;> exact absurd hm (by decide)
    · cases neg
      · refine ⟨false, w ++ '\n' :: t, .inr (.inr ⟨rfl, rfl, ?_, ?_⟩), .inr (.inl ⟨hI, rfl⟩)⟩
        all_goals
          intro h
          rw [List.head?_append_of_ne_nil _ hwn] at h
          exact absurd (hhead _ h) (by decide)
      · exact ⟨true, w ++ '\n' :: t, .inl ⟨rfl, rfl⟩, .inr (.inl ⟨hI, rfl⟩)⟩

/-- C76: lines with decimal literals and infinities make a column; this is what the files in /repo/examples/example_data
look like. -/
theorem C76_forms : ∀ ls : List (List Char × Dbl), (∀ p ∈ ls, Line p.1 p.2) →
    Column (ls.flatMap fun p => p.1 ++ ['\n']) (ls.map Prod.snd) := by
  intro ls
  induction ls with
  | nil => intro _; exact .nil
  | cons p ls ih =>
    intro h
    obtain ⟨h1, h2, h3⟩ := (h p (List.mem_cons_self ..)).ok (ls.flatMap fun p => p.1 ++ ['\n'])
    rw [List.flatMap_cons, List.append_assoc, List.map_cons]
    exact .cons h1 h2 h3 (ih fun q hq => h q (List.mem_cons_of_mem _ hq))

example : Line ['-', '0', '.', '0', '8'] (Dbl.rnd (-8 / 100)) ∧ Line ['-', 'I', 'n', 'f'] .ninf ∧
    Line ['4', '.', '4', '4', '0', '8', '9', 'e', '-', '1', '6'] (Dbl.rnd (444089 / 10 ^ 21)) := by
  refine ⟨?_, .inf true ['I', 'n', 'f'] (by decide), ?_⟩
  · have := Line.dec true ['0'] ['0', '8'] none (by simp) (by decide) (by decide) (by simp)
    have e1 : decVal true ['0'] ['0', '8'] none = -8 / 100 := by decide +kernel
    rw [e1] at this
    exact this
  · have := Line.dec false ['4'] ['4', '4', '0', '8', '9'] (some (true, ['1', '6'])) (by simp) (by decide) (by decide) (by
      rintro m es h; cases h; exact ⟨by simp, by decide⟩)
    have e1 : decVal false ['4'] ['4', '4', '0', '8', '9'] (some (true, ['1', '6'])) = 444089 / 10 ^ 21 := by decide +kernel
    rw [e1] at this
    exact this

/-- C76: without directory the exit code is -1. -/
theorem C76_nodir (e : Env Dbl) (qd sd fuel : Nat) : main e none qd sd fuel = .ok (some (.exit (-1))) := rfl

theorem lines_zero (p : Path) : lines p = 0 ↔ p = none ∨ p = some none ∨ p = some (some []) := by
  match p with
  | none => simp [lines]
  | some none => simp [lines]
  | some (some []) => simp [lines, countLines]
  | some (some (c :: t)) =>
    rw [lines_text]
    constructor
    · intro h
      exfalso
      rcases split_line (c :: t) with ⟨l, r, h1, h2, _⟩ | ⟨h1, _⟩
      · rw [h1, lineCount_line _ _ h2] at h; omega
      · rw [lineCount_last _ h1 (by simp)] at h; omega
    · intro h; simp at h

theorem sqrt_zero (k : Nat) : k.sqrt = 0 ↔ k = 0 := by
  constructor
  · intro h
    have := Nat.lt_succ_sqrt k
    rw [h] at this
    simpa using this
  · rintro rfl; rfl

theorem tail_divZero {e : Env Dbl} {qd sd fuel : Nat} {r : RV × Obj Dbl} : tail e qd sd fuel r ≠ .ok (some .divZero) := by
  intro h
  unfold tail at h
  split at h
  · cases h
  · rcases hx : (if (options qd sd).qpSolver ≥ 1 then switchToSparse r.2 else .ok r) with f | r'
    · rw [hx] at h; cases h
    · rw [hx, ok_bind, tail2] at h
      split at h
      · cases h
      · rcases hy : runSolver e fuel r'.2 with f | q
        · rw [hy] at h; cases h
        · rw [hy, ok_bind] at h
          cases q <;> cases h

/-- C76 (a defect): the program divides by zero exactly if `Q.txt` does not exist, cannot be opened or is empty; then it
never gets as far as the error message of `loadLCQP`. -/
theorem C76_divzero (e : Env Dbl) (d : Dir) (qd sd fuel : Nat) :
    main e (some d) qd sd fuel = .ok (some .divZero) ↔ d.Q = none ∨ d.Q = some none ∨ d.Q = some (some []) := by
  rw [← lines_zero, ← sqrt_zero]
  constructor
  · intro h
    by_contra h0
    rw [main_tail e d qd sd fuel h0] at h
    cases hl : loadFiles e (start qd sd (dimsOf d)) (args d) with
    | error f => rw [hl] at h; cases h
    | ok r => rw [hl, ok_bind] at h; exact tail_divZero h
  · intro h
    simp only [main, if_pos h]

/-- C76: the sizes are determined by the directory, and there is a variable if `Q.txt` has a line. -/
theorem C76_sizes (d : Dir) (h : ¬ (d.Q = none ∨ d.Q = some none ∨ d.Q = some (some []))) :
    ∃ n, Sizes d n ∧ n.nV ≠ 0 ∧ ∀ m, Sizes d m → m = n := by
  rw [← lines_zero, ← sqrt_zero] at h
  have hd : ∀ a : Nat, a / (lines d.Q).sqrt * (lines d.Q).sqrt ≤ a ∧ a < (a / (lines d.Q).sqrt + 1) * (lines d.Q).sqrt := by
    intro a
    refine ⟨Nat.div_mul_le_self _ _, ?_⟩
    rw [Nat.add_mul, Nat.one_mul]
    have := Nat.div_add_mod a (lines d.Q).sqrt
    rw [Nat.mul_comm] at this
    have := Nat.mod_lt a (Nat.pos_of_ne_zero h)
    omega
  refine ⟨dimsOf d, ⟨?_, ?_, ?_⟩, h, fun m hm => hm.dims.symm⟩
  · rw [← lines_path]
    exact ⟨Nat.sqrt_le _, Nat.lt_succ_sqrt _⟩
  · rw [← lines_path]; exact hd _
  · rw [← lines_path]
    have : (dimsOf d).nC = lines d.A / (lines d.Q).sqrt := by
      unfold dimsOf
      cases hA : d.A with
      | none => simp [lines]
      | some f => rfl
    rw [this]; exact hd _

/-- C76 (a defect): with fewer lines in `L.txt` than variables, for instance without that file, the constructor refuses the
dimensions, which the program does not notice; the uninitialised members are used afterwards. -/
theorem C76_nocomp (e : Env Dbl) (d : Dir) (qd sd fuel : Nat) {n : Dims} (h : Sizes d n) (hV : n.nV ≠ 0) (hC : n.nComp = 0) :
    main e (some d) qd sd fuel = .error .uninit := by
  have hn := h.dims
  have h0 : (lines d.Q).sqrt ≠ 0 := by rw [← hn] at hV; exact hV
  have hC : (dimsOf d).nComp = 0 := by rw [hn]; exact hC
  have hd : (start qd sd (dimsOf d)).d.dims = none := by
    have := ((C39_dims (Options.default qd sd : Options Dbl) (dimsOf d).nV (dimsOf d).nC (dimsOf d).nComp).2 (by rw [hC]; simp)).1
    exact this
  rw [main_tail e d qd sd fuel h0, loadFiles, hd, initd_none]
  rfl

section usable
variable {e : Env Dbl} {M : Int} {d : Dir} {qd sd fuel : Nat}

theorem arrays_fits (d : Dir) (j : Nat → Nat → Dbl) (n : Dims) : ((args d).arrays j n).Fits n := by
  have key : ∀ s m (f : Option (File Dbl)) v, fileArr j s m f = some v → m ≤ v.length := by
    intro s m f v h
    cases f with
    | none => cases h
    | some f =>
      injection h with h
      rw [← h]
      simp
  exact { Q := ⟨_, rfl, key 30 _ (some (file d.Q)) _ rfl⟩, L := ⟨_, rfl, key 32 _ (some (file d.L)) _ rfl⟩,
          R := ⟨_, rfl, key 33 _ (some (file d.R)) _ rfl⟩, g := key 31 _ (some (file d.g)), A := key 38 _ _, lbA := key 39 _ _, ubA := key 40 _ _,
          lbL := key 34 _ (some (file d.lbL)), ubL := key 35 _ (some (file d.ubL)),
          lbR := key 36 _ (some (file d.lbR)), ubR := key 37 _ (some (file d.ubR)),
          lb := key 41 _ (some (file d.lb)), ub := key 42 _ (some (file d.ub)),
          x0 := key 43 _ _, y0 := by intro v h; cases h }

/-- C76: a file that is needed and missing, an optional one that cannot be opened, or something else than a number among the
entries: exit code 1. -/
theorem C76_unreadable {n : Dims} (hn : Sizes d n) (hV : n.nV ≠ 0) (hC : n.nComp ≠ 0) (h : AnyUnfit d n) :
    main e (some d) qd sd fuel = .ok (some (.exit 1)) := by
  rw [anyUnfit_iff] at h
  obtain rfl := hn.dims
  have h0 : (lines d.Q).sqrt ≠ 0 := hV
  have hp := start_prepared e qd sd (n := dimsOf d) h0 hC
  rw [main_tail e d qd sd fuel h0, C41_unreadable hp.untouched.1.dims (args_named d) h]
  rfl

open Classical in
/-- the program after the files were read: the dense load, the switch and the run -/
theorem run_arrays (he : AnsBnd e M) (hM : 1001 * M ≤ intMax) {n : Dims} (hV : n.nV ≠ 0) (hC : n.nComp ≠ 0) {b : DenseArgs Dbl}
    (hf : b.Fits n) (hg : b.g ≠ none) (hA : b.A = none → n.nC = 0) (hl : b.lbL ≠ none) (hr : b.lbR ≠ none) :
    (HasMinusInf b.lbL n.nComp ∨ HasMinusInf b.lbR n.nComp →
      loadDense e (start qd sd n) b >>= tail e qd sd fuel = .ok (some (.exit 1))) ∧
    (¬ (HasMinusInf b.lbL n.nComp ∨ HasMinusInf b.lbR n.nComp) → ∃ o1 o q,
      loadDense e (start qd sd n) b = .ok (.successfulReturn, o1) ∧ switchToSparse o1 = .ok (.successfulReturn, o) ∧
      o.d.opts = options qd sd ∧ o.d.sparse = true ∧ Prepared e n true o ∧ runSolver e fuel o = .ok q ∧
      loadDense e (start qd sd n) b >>= tail e qd sd fuel =
        .ok (q.map fun r => .exit (if r.1 = .successfulReturn then 0 else 1))) := by
  have hp := start_prepared e qd sd hV hC
  obtain ⟨hu, _⟩ := hp.untouched
  obtain ⟨r, o1, h1, hrv⟩ := C15_codes e _ n b hu.dims hV hC hf
  rw [if_neg hg, if_neg (by rintro ⟨h, h'⟩; have := hA h; omega)] at hrv
  constructor
  · intro hm
    rw [if_pos hm] at hrv
    rw [h1, ok_bind, hrv]
    rfl
  · intro hm
    rw [if_neg hm] at hrv
    subst hrv
    have hlr : b.lbL = none ↔ b.lbR = none := ⟨fun h => absurd h hl, fun h => absurd h hr⟩
    have hp1 : Prepared e n true o1 := .dense b hp hf hlr h1
    have hopt : o1.d.opts = options qd sd := (hu.toBuilt.load hf hlr h1).2.1
    obtain ⟨hu1, hr1⟩ := hp1.untouched
    obtain ⟨o, h2, _, _, hs, ho⟩ := hu1.toSparse (hr1 rfl)
    have hp2 := hp1.toSparse h2
    have hop := ho.trans hopt
    obtain ⟨q1, q2⟩ := options_eq qd sd
    obtain ⟨q, hq, _⟩ := runSolver_total (hp2.untouched.2 rfl) he
      (show Small o.d.opts M by rw [hop]; exact ⟨by rw [q2]; decide, by rw [q2]; decide, by rw [q2]; exact hM⟩)
      (fun h2 _ => by rw [hop, q1] at h2; cases h2) fuel
    refine ⟨o1, o, q, h1, h2, hop, hs, hp2, hq, ?_⟩
    rw [h1, ok_bind, tail, if_neg (by simp), if_pos (by rw [q1]), h2, ok_bind, tail2, if_neg (by simp), hq, ok_bind]
    cases q with
    | none => rfl
    | some r => by_cases h : r.1 = .successfulReturn <;> simp [h]

/-- C76: a non-empty `Q.txt` and at least as many lines in `L.txt` as variables are all it takes: whatever the other files are, no step is undefined,
and the exit code is 0 or 1 or the run goes on. -/
theorem C76_safe (he : AnsBnd e M) (hM : 1001 * M ≤ intMax) {n : Dims} (hn : Sizes d n) (hV : n.nV ≠ 0) (hC : n.nComp ≠ 0) :
    ∃ q, main e (some d) qd sd fuel = .ok q ∧ (q = none ∨ q = some (.exit 0) ∨ q = some (.exit 1)) := by
  by_cases h : AnyUnfit d n
  · exact ⟨_, C76_unreadable hn hV hC h, by simp⟩
  · rw [anyUnfit_iff, not_not] at h
    obtain rfl := hn.dims
    have h0 : (lines d.Q).sqrt ≠ 0 := hV
    have hu := (start_prepared e qd sd (n := dimsOf d) h0 hC).untouched.1
    rw [main_tail e d qd sd fuel h0, C41_load hu.dims h0 hC (args_named d) h]
    have := run_arrays (qd := qd) (sd := sd) (fuel := fuel) he hM (n := dimsOf d) h0 hC (arrays_fits d e.junk _)
      (by simp [FileArgs.arrays, args, fileArr]) (by
        intro ha
        cases hA : d.A with
        | none => simp [dimsOf, hA]
        | some f => simp [FileArgs.arrays, args, fileArr, hA, optional] at ha)
      (by simp [FileArgs.arrays, args, fileArr]) (by simp [FileArgs.arrays, args, fileArr])
    by_cases hm : HasMinusInf ((args d).arrays e.junk (dimsOf d)).lbL (dimsOf d).nComp ∨
      HasMinusInf ((args d).arrays e.junk (dimsOf d)).lbR (dimsOf d).nComp
    · exact ⟨_, this.1 hm, by simp⟩
    · obtain ⟨_, _, q, _, _, _, _, _, _, h'⟩ := this.2 hm
      refine ⟨_, h', ?_⟩
      cases q with
      | none => simp
      | some r =>
        by_cases hr : r.1 = .successfulReturn <;> simp [hr]

theorem Holds.dims {n : Dims} {a : DenseArgs Dbl} (h : Holds d n a) (hV : n.nV ≠ 0) : dimsOf d = n := by
  obtain ⟨Q, _, hQ, h1⟩ := h.Q
  obtain ⟨L, _, hL, h2⟩ := h.L
  have e1 : (lines d.Q).sqrt = n.nV := by rw [h1.lines, hQ, Nat.sqrt_eq]
  have e2 : lines d.L / (lines d.Q).sqrt = n.nComp := by rw [e1, h2.lines, hL, Nat.mul_div_cancel _ (by omega)]
  have e3 : (if d.A.isSome then lines d.A / (lines d.Q).sqrt else 0) = n.nC := by
    rcases h.A with ⟨h3, h4⟩ | ⟨A, _, hA, h3⟩
    · rw [h3, h.noA h4]; rfl
    · rw [if_pos (by obtain ⟨t, ht, _⟩ := h3; rw [ht]; rfl), e1, h3.lines, hA, Nat.mul_div_cancel _ (by omega)]
  unfold dimsOf
  rw [e2, e3, e1]

/-- C76: a directory which holds the arrays of a problem as columns.  The dimensions are found, the arrays are those of the
dense `loadLCQP` without dual guess, and the program is that load, the switch to sparse data and the run: exit code 1 for an
infinite lower complementarity bound, otherwise 0 if the run succeeded and 1 if it did not. -/
theorem C76_run (he : AnsBnd e M) (hM : 1001 * M ≤ intMax) {n : Dims} {a : DenseArgs Dbl} (hV : n.nV ≠ 0) (hC : n.nComp ≠ 0)
    (h : Holds d n a) :
    (HasMinusInf a.lbL n.nComp ∨ HasMinusInf a.lbR n.nComp → main e (some d) qd sd fuel = .ok (some (.exit 1))) ∧
    (¬ (HasMinusInf a.lbL n.nComp ∨ HasMinusInf a.lbR n.nComp) → ∃ o1 o q,
      loadDense e (setOptions (Obj.new (Options.default qd sd) n.nV n.nC n.nComp) (options qd sd)) { a with y0 := none } =
        .ok (.successfulReturn, o1) ∧
      switchToSparse o1 = .ok (.successfulReturn, o) ∧ o.d.opts = options qd sd ∧ o.d.sparse = true ∧ Prepared e n true o ∧
      runSolver e fuel o = .ok q ∧
      main e (some d) qd sd fuel = .ok (q.map fun r => .exit (if r.1 = .successfulReturn then 0 else 1))) := by
  have hd := h.dims hV
  have h0 : (lines d.Q).sqrt ≠ 0 := by
    have : (dimsOf d).nV ≠ 0 := by rw [hd]; exact hV
    exact this
  have hu := (start_prepared e qd sd hV hC).untouched.1
  have hm : main e (some d) qd sd fuel = loadDense e (start qd sd n) { a with y0 := none } >>= tail e qd sd fuel := by
    rw [main_tail e d qd sd fuel h0, hd, C41_load hu.dims hV hC (args_named d) h.readable, h.arrays]
  have hf : DenseArgs.Fits { a with y0 := none } n := by
    have := arrays_fits d e.junk n
    rwa [h.arrays] at this
  have key : ∀ {p b k}, Req p b k → b ≠ none := by
    rintro p b k ⟨v, rfl, _⟩; simp
  rw [hm]
  exact run_arrays he hM hV hC hf (key h.g) h.noA (key h.lbL) (key h.lbR)

end usable

/-- text of a file written with `writeToFile` -/
def written (b : Option (List Dbl)) : Path := b.map fun b => some (b.flatMap fun v => fixed v ++ ['\n'])

/-- the directory with all arrays written by `writeToFile` (see C72_text), and any `y0.txt` -/
def dirOf (a : DenseArgs Dbl) (y0 : Path) : Dir where
  Q := written a.Q
  g := written a.g
  lb := written a.lb
  ub := written a.ub
  L := written a.L
  R := written a.R
  lbL := written a.lbL
  lbR := written a.lbR
  ubL := written a.ubL
  ubR := written a.ubR
  A := written a.A
  lbA := written a.lbA
  ubA := written a.ubA
  x0 := written a.x0
  y0 := y0

/-- the arrays have exactly the documented sizes, and those for required files are given -/
structure Exact (a : DenseArgs Dbl) (n : Dims) : Prop where
  Q : ∃ v, a.Q = some v ∧ v.length = n.nV * n.nV
  g : ∃ v, a.g = some v ∧ v.length = n.nV
  L : ∃ v, a.L = some v ∧ v.length = n.nComp * n.nV
  R : ∃ v, a.R = some v ∧ v.length = n.nComp * n.nV
  lbL : ∃ v, a.lbL = some v ∧ v.length = n.nComp
  ubL : ∃ v, a.ubL = some v ∧ v.length = n.nComp
  lbR : ∃ v, a.lbR = some v ∧ v.length = n.nComp
  ubR : ∃ v, a.ubR = some v ∧ v.length = n.nComp
  lb : ∃ v, a.lb = some v ∧ v.length = n.nV
  ub : ∃ v, a.ub = some v ∧ v.length = n.nV
  A : ∀ v, a.A = some v → v.length = n.nC * n.nV
  noA : a.A = none → n.nC = 0
  lbA : ∀ v, a.lbA = some v → v.length = n.nC
  ubA : ∀ v, a.ubA = some v → v.length = n.nC
  x0 : ∀ v, a.x0 = some v → v.length = n.nV

/-- C76: files written by `writeToFile` hold the arrays with every number rounded to six decimals, whatever `y0.txt` is.  With
C76_run: writing a problem and running the program is the run on the rounded problem. -/
theorem C76_written {a : DenseArgs Dbl} {n : Dims} (h : Exact a n) (y0 : Path) : Holds (dirOf a y0) n (mapArgs back a) := by
  have req : ∀ {b : Option (List Dbl)} {k : Nat}, (∃ v, b = some v ∧ v.length = k) → Req (written b) (b.map (List.map back)) k := by
    rintro b k ⟨v, rfl, hk⟩
    exact ⟨v.map back, rfl, by rw [List.length_map, hk], _, rfl, column_written v⟩
  have opt : ∀ {b : Option (List Dbl)} {k : Nat}, (∀ v, b = some v → v.length = k) → Opt (written b) (b.map (List.map back)) k := by
    intro b k hb
    cases b with
    | none => exact .inl ⟨rfl, rfl⟩
    | some v => exact .inr (req ⟨v, rfl, hb v rfl⟩)
  exact ⟨req h.Q, req h.g, req h.L, req h.R, req h.lbL, req h.ubL, req h.lbR, req h.ubR, req h.lb, req h.ub, opt h.A,
    fun hA => h.noA (by simpa [mapArgs] using hA), opt h.lbA, opt h.ubA, opt h.x0⟩

/-- C76 (a defect): the file `y0.txt` is never read; the program behaves the same for every contents. -/
theorem C76_dual (e : Env Dbl) (d : Dir) (y0 : Path) (qd sd fuel : Nat) :
    main e (some { d with y0 := y0 }) qd sd fuel = main e (some d) qd sd fuel := rfl

end FromFile
end LCQ
