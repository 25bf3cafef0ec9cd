import Verif.Spec.FromFile
import Verif.Lemmas.Text
import Verif.Props.Text
import Verif.Props.Files
import Verif.Props.SafetyModes

/-!
# Lines and numbers of data files
-/

namespace LCQ
namespace FromFile
open Text

theorem lineCount_line (l t : List Char) (hl : '\n' ∉ l) : lineCount (l ++ '\n' :: t) = lineCount t + 1 := by
  have h0 : l.count '\n' = 0 := List.count_eq_zero.mpr hl
  unfold lineCount
  rw [List.count_append, h0, List.count_cons_self]
  by_cases ht : t = []
  · subst ht; simp
  · have e1 : (l ++ '\n' :: t).getLast? = t.getLast? := by
      rw [List.getLast?_append_of_ne_nil _ (by simp), List.getLast?_cons]
      cases t with
      | nil => exact absurd rfl ht
      | cons a b => rw [List.getLast?_cons]; simp
    rw [e1]
    simp only [ht, false_or, List.append_eq_nil_iff, reduceCtorEq, and_false]
    omega

theorem lineCount_last (l : List Char) (hl : '\n' ∉ l) (hn : l ≠ []) : lineCount l = 1 := by
  have h0 : l.count '\n' = 0 := List.count_eq_zero.mpr hl
  unfold lineCount
  rw [h0, if_neg]
  simp only [hn, false_or]
  intro h
  exact hl (List.mem_of_getLast? h)

/-- a text is a line followed by something or one line without newline -/
theorem split_line (t : List Char) :
    (∃ l r, t = l ++ '\n' :: r ∧ '\n' ∉ l ∧ (t.dropWhile (· ≠ '\n')).drop 1 = r) ∨ ('\n' ∉ t ∧ (t.dropWhile (· ≠ '\n')).drop 1 = []) := by
  induction t with
  | nil => exact .inr ⟨by simp, rfl⟩
  | cons c t ih =>
    by_cases hc : c = '\n'
    · subst hc
      exact .inl ⟨[], t, rfl, by simp, by simp⟩
    · rw [List.dropWhile_cons_of_pos (by simp [hc])]
      rcases ih with ⟨l, r, h1, h2, h3⟩ | ⟨h1, h2⟩
      · exact .inl ⟨c :: l, r, by rw [h1]; rfl, by simp [h2, Ne.symm hc], h3⟩
      · exact .inr ⟨by simp [h1, Ne.symm hc], h2⟩

theorem countLines_eq : ∀ (fuel : Nat) (t : List Char) (k : Nat), t.length ≤ fuel → countLines fuel t k = k + lineCount t := by
  intro fuel
  induction fuel with
  | zero =>
    intro t k h
    have : t = [] := List.eq_nil_of_length_eq_zero (by omega)
    subst this
    rfl
  | succ fuel ih =>
    intro t k h
    cases t with
    | nil => rfl
    | cons c t =>
      rw [countLines, getline]
      dsimp only
      rcases split_line (c :: t) with ⟨l, r, h1, h2, h3⟩ | ⟨h1, h2⟩
      · rw [h3, ih, h1, lineCount_line _ _ h2]
        · omega
        · have := congrArg List.length h1
          simp only [List.length_cons, List.length_append] at this h
          omega
      · rw [h2, ih _ _ (by simp), lineCount_last _ h1 (by simp)]
        rfl

theorem lines_text (t : List Char) : lines (some (some t)) = lineCount t := by
  rw [lines, countLines_eq _ _ _ le_rfl, Nat.zero_add]

theorem tokens_ftoks : ∀ (fuel : Nat) (t : List Char), t.length < fuel → FToks float t (tokens fuel t) := by
  intro fuel
  induction fuel with
  | zero => intro t h; omega
  | succ fuel ih =>
    intro t h
    rw [tokens]
    split
    · rename_i h0; exact .eof h0
    · rename_i c cs h0
      split
      · rename_i h1
        exact .bad (by rw [h0]; simp) (by rw [h0]; exact h1)
      · rename_i v h1
        refine .num (by rw [h0]; simp) (by rw [h0]; exact h1) (ih _ ?_)
        have h2 := float_lt h1
        have h3 := skip_le t
        rw [h0] at h3
        omega

theorem Column.lines {t : List Char} {v : List Dbl} (h : Column t v) : lineCount t = v.length := by
  induction h with
  | nil => rfl
  | cons h1 h2 _ _ ih =>
    rw [lineCount_line _ _ (fun hc => h2 _ hc (by decide)), ih, List.length_cons]

theorem Column.ftoks {t : List Char} {v : List Dbl} (h : Column t v) :
    FToks float t (v.map Tok.num) ∧ FToks float ('\n' :: t) (v.map Tok.num) := by
  induction h with
  | nil => exact ⟨.eof rfl, .eof rfl⟩
  | @cons l t v vs h1 h2 h3 _ ih =>
    obtain ⟨c, l, rfl⟩ := List.exists_cons_of_ne_nil h1
    have hc := h2 c (List.mem_cons_self ..)
    have e1 : Text.skip (c :: l ++ '\n' :: t) = c :: l ++ '\n' :: t := skip_cons hc _
    have e2 : Text.skip ('\n' :: (c :: l ++ '\n' :: t)) = c :: l ++ '\n' :: t :=
      (skip_white (w := ['\n']) (by intro d hd; rw [List.mem_singleton] at hd; subst hd; decide) _).trans e1
    have hv := (float_iff _ _ _).mpr h3
    exact ⟨.num (by rw [e1]; simp) (by rw [e1]; exact hv) ih.2, .num (by rw [e2]; simp) (by rw [e2]; exact hv) ih.2⟩

theorem Is.file {p : Path} {v : List Dbl} (h : Is p v) : file p = some (v.map Tok.num) := by
  obtain ⟨t, rfl, h⟩ := h
  rw [FromFile.file, toks_unique (tokens_ftoks _ _ (Nat.lt_succ_self _)) h.ftoks.1]

theorem Is.lines {p : Path} {v : List Dbl} (h : Is p v) : lines p = v.length := by
  obtain ⟨t, rfl, h⟩ := h
  rw [lines_text, h.lines]

theorem fixed_noWhite (x : Dbl) : ∀ c ∈ fixed x, ¬ White c := by
  have hd : ∀ c : Char, c.isDigit = true → ¬ White c := by
    intro c hc hw
    rw [Char.isDigit, Bool.and_eq_true, decide_eq_true_eq, decide_eq_true_eq] at hc
    have h1 : 48 ≤ c.toNat := hc.1
    unfold White at hw
    omega
  cases x with
  | pinf => intro c hc; simp only [fixed, List.mem_cons, List.not_mem_nil, or_false] at hc; rcases hc with rfl | rfl | rfl <;> decide
  | ninf => intro c hc; simp only [fixed, List.mem_cons, List.not_mem_nil, or_false] at hc; rcases hc with rfl | rfl | rfl | rfl <;> decide
  | nan => intro c hc; simp only [fixed, List.mem_cons, List.not_mem_nil, or_false] at hc; rcases hc with rfl | rfl | rfl <;> decide
  | num q h hb =>
    intro c hc
    simp only [fixed, List.mem_append, List.mem_singleton] at hc
    rcases hc with ((hc | hc) | rfl) | hc
    · split at hc
      · rw [List.mem_singleton] at hc; subst hc; decide
      · cases hc
    · exact hd c (nat_digits _ c hc)
    · decide
    · exact hd c (six_digits _ c hc)

theorem column_written (b : List Dbl) : Column (b.flatMap fun x => fixed x ++ ['\n']) (b.map back) := by
  induction b with
  | nil => exact .nil
  | cons x b ih =>
    rw [List.flatMap_cons, List.append_assoc, List.map_cons]
    refine .cons ?_ (fixed_noWhite x) ?_ ih
    · obtain ⟨c, cs, hc, _⟩ := fixed_first x
      rw [hc]; simp
    · exact (float_iff _ _ _).mp (float_fixed ..)

/-! ## arrays of the files -/

theorem fileVals_col (v : List Dbl) (j : Nat → Dbl) (m : Nat) (h : v.length = m) : fileVals (v.map Tok.num) j m = v := by
  refine List.ext_getElem? fun i => ?_
  by_cases hi : i < m
  · rw [fileVals_get _ _ hi, List.getElem?_map, List.getElem?_eq_getElem (by omega : i < v.length)]
    rfl
  · rw [List.getElem?_eq_none (by simp; omega), List.getElem?_eq_none (by omega)]

theorem Req.arr {p : Path} {b : Option (List Dbl)} {k : Nat} (h : Req p b k) (j : Nat → Nat → Dbl) (s : Nat) :
    fileArr j s k (some (file p)) = b := by
  obtain ⟨v, rfl, hk, h⟩ := h
  rw [fileArr, h.file, Option.map_some, Option.getD_some, fileVals_col _ _ _ hk]

theorem Opt.arr {p : Path} {b : Option (List Dbl)} {k : Nat} (h : Opt p b k) (j : Nat → Nat → Dbl) (s : Nat) :
    fileArr j s k (optional p) = b := by
  rcases h with ⟨rfl, rfl⟩ | h
  · rfl
  · obtain ⟨v, h1, h2, t, rfl, h3⟩ := h
    exact Req.arr ⟨v, h1, h2, t, rfl, h3⟩ j s

theorem Req.readable {p : Path} {b : Option (List Dbl)} {k : Nat} (h : Req p b k) : ∀ f, some (file p) = some f → Readable f k := by
  rintro f ⟨⟩
  obtain ⟨v, rfl, hk, h⟩ := h
  rw [h.file]
  refine ⟨_, rfl, ?_⟩
  intro i _ hc
  rw [List.getElem?_map] at hc
  cases hv : v[i]? with
  | none => rw [hv] at hc; cases hc
  | some x => rw [hv] at hc; cases hc

theorem Opt.readable {p : Path} {b : Option (List Dbl)} {k : Nat} (h : Opt p b k) : ∀ f, optional p = some f → Readable f k := by
  rcases h with ⟨rfl, rfl⟩ | h
  · intro f hf; cases hf
  · obtain ⟨v, h1, h2, t, rfl, h3⟩ := h
    exact Req.readable ⟨v, h1, h2, t, rfl, h3⟩

theorem args_named (d : Dir) : (args d).Named := ⟨by simp [args], by simp [args], by simp [args], by simp [args]⟩

theorem Holds.readable {d : Dir} {n : Dims} {a : DenseArgs Dbl} (h : Holds d n a) : (args d).All n Readable where
  Q := h.Q.readable
  g := h.g.readable
  L := h.L.readable
  R := h.R.readable
  lbL := h.lbL.readable
  ubL := h.ubL.readable
  lbR := h.lbR.readable
  ubR := h.ubR.readable
  A := h.A.readable
  lbA := h.lbA.readable
  ubA := h.ubA.readable
  lb := h.lb.readable
  ub := h.ub.readable
  x0 := h.x0.readable
  y0 f hf := by cases hf

theorem Holds.arrays {d : Dir} {n : Dims} {a : DenseArgs Dbl} (h : Holds d n a) (j : Nat → Nat → Dbl) :
    (args d).arrays j n = { a with y0 := none } := by
  unfold FileArgs.arrays args
  dsimp only
  rw [h.Q.arr, h.g.arr, h.L.arr, h.R.arr, h.lbL.arr, h.ubL.arr, h.lbR.arr, h.ubR.arr, h.A.arr, h.lbA.arr, h.ubA.arr, h.lb.arr,
    h.ub.arr, h.x0.arr]
  rfl

/-! ## the program -/

/-- the rest of the program after the switch to sparse data -/
def tail2 (e : Env Dbl) (fuel : Nat) (r : RV × Obj Dbl) : M (Option Out) :=
  if r.1 ≠ .successfulReturn then .ok (some (.exit 1))
  else runSolver e fuel r.2 >>= fun q =>
    match q with
    | none => .ok none
    | some r => .ok (some (.exit (if r.1 ≠ .successfulReturn then 1 else 0)))

/-- the rest of the program after the data were read -/
def tail (e : Env Dbl) (qd sd fuel : Nat) (r : RV × Obj Dbl) : M (Option Out) :=
  if r.1 ≠ .successfulReturn then .ok (some (.exit 1))
  else (if (options qd sd).qpSolver ≥ 1 then switchToSparse r.2 else .ok r) >>= tail2 e fuel

/-- the dimensions found by the program -/
def dimsOf (d : Dir) : Dims :=
  ⟨(lines d.Q).sqrt, if d.A.isSome then lines d.A / (lines d.Q).sqrt else 0, lines d.L / (lines d.Q).sqrt⟩

/-- the object before the data are read -/
def start (qd sd : Nat) (n : Dims) : Obj Dbl := setOptions (Obj.new (Options.default qd sd) n.nV n.nC n.nComp) (options qd sd)

theorem lines_path (p : Path) : lines p = pathLines p := by
  match p with
  | none => rfl
  | some none => rfl
  | some (some t) => exact lines_text t

theorem Sizes.dims {d : Dir} {n : Dims} (h : Sizes d n) : dimsOf d = n := by
  obtain ⟨h1, h2, h3⟩ := h
  rw [← lines_path] at h1 h2 h3
  have e1 : (lines d.Q).sqrt = n.nV := (Nat.eq_sqrt.mpr h1).symm
  have e2 : lines d.L / (lines d.Q).sqrt = n.nComp := by
    rw [e1]; exact Nat.div_eq_of_lt_le h2.1 h2.2
  have e3 : (if d.A.isSome then lines d.A / (lines d.Q).sqrt else 0) = n.nC := by
    rw [e1]
    have : lines d.A / n.nV = n.nC := Nat.div_eq_of_lt_le h3.1 h3.2
    rw [this]
    cases hA : d.A with
    | some f => rfl
    | none =>
      have h0 : lines d.A = 0 := by rw [hA]; rfl
      rw [h0, Nat.zero_div] at this
      simp [this]
  unfold dimsOf
  rw [e2, e3, e1]

theorem unfit_iff (p : Path) (k : Nat) : Unfit p k ↔ ¬ Readable (file p) k := by
  constructor
  · rintro (h | ⟨t, ts, i, rfl, h, hi, hb⟩) ⟨us, hu, hr⟩
    · match p, h with
      | none, _ => cases hu
      | some none, _ => cases hu
      | some (some t), h => exact h t rfl
    · have : us = ts := by
        injection hu with hu
        rw [← hu]
        exact toks_unique (tokens_ftoks _ _ (Nat.lt_succ_self _)) ((ftoks_iff float_iff t ts).mp h)
      subst this
      exact hr i hi hb
  · intro h
    match p, h with
    | none, _ => exact .inl (by simp)
    | some none, _ => exact .inl (by simp)
    | some (some t), h =>
      right
      by_contra hc
      refine h ⟨_, rfl, fun i hi hb => hc ⟨t, _, i, rfl, (ftoks_iff float_iff t _).mpr (tokens_ftoks _ t (Nat.lt_succ_self _)), hi, hb⟩⟩

theorem opt_iff (p : Path) (k : Nat) : (p ≠ none ∧ Unfit p k) ↔ ¬ ∀ f, optional p = some f → Readable f k := by
  rw [unfit_iff]
  cases p with
  | none => simp [optional]
  | some f => simp [optional]

theorem req_iff (p : Path) (k : Nat) : Unfit p k ↔ ¬ ∀ f, some (file p) = some f → Readable f k := by
  rw [unfit_iff]
  simp

theorem anyUnfit_iff (d : Dir) (n : Dims) : AnyUnfit d n ↔ ¬ (args d).All n Readable := by
  unfold AnyUnfit
  rw [req_iff d.Q, req_iff d.g, req_iff d.L, req_iff d.R, req_iff d.lbL, req_iff d.ubL, req_iff d.lbR, req_iff d.ubR, req_iff d.lb,
    req_iff d.ub, opt_iff d.A, opt_iff d.lbA, opt_iff d.ubA, opt_iff d.x0]
  simp only [← not_and_or]
  refine not_congr ⟨?_, ?_⟩
  · rintro ⟨h1, h2, h3, h4, h5, h6, h7, h8, h9, h10, h11, h12, h13, h14⟩
    exact ⟨h1, h2, h3, h4, h5, h6, h7, h8, h11, h12, h13, h9, h10, h14, fun f hf => by cases hf⟩
  · rintro ⟨h1, h2, h3, h4, h5, h6, h7, h8, h11, h12, h13, h9, h10, h14, _⟩
    exact ⟨h1, h2, h3, h4, h5, h6, h7, h8, h9, h10, h11, h12, h13, h14⟩

theorem main_tail (e : Env Dbl) (d : Dir) (qd sd fuel : Nat) (h : (lines d.Q).sqrt ≠ 0) :
    main e (some d) qd sd fuel = loadFiles e (start qd sd (dimsOf d)) (args d) >>= tail e qd sd fuel := by
  simp only [main, if_neg h]
  rfl

theorem start_prepared (e : Env Dbl) (qd sd : Nat) {n : Dims} (hV : n.nV ≠ 0) (hC : n.nComp ≠ 0) : Prepared e n false (start qd sd n) :=
  .options _ (.new _ _ _ _ ⟨by omega, by omega, by omega⟩ (by cases n; simp))

theorem options_eq (qd sd : Nat) : (options qd sd).qpSolver = 1 ∧ (options qd sd).maxIter = 1000 := ⟨rfl, rfl⟩

end FromFile
end LCQ
