import Verif.Model.Files
import Verif.Lemmas.Load
import Verif.Props.CertifyEx

/-!
# C41: reading data files
-/

set_option linter.unusedSectionVars false

namespace LCQ
open Scalar

/-! ## the content of a file -/

/-- the first `n` numbers of a file; entries without number in the file are taken from `old` -/
def fileVals {β : Type} (ts : List (Tok β)) (old : Nat → β) (n : Nat) : List β :=
  (List.range n).map fun i : Nat => match ts[i]? with
    | some (Tok.num v) => v
    | _ => old i

/-- the file can be opened and nothing but numbers is found in its first `n` tokens (there may be fewer) -/
def Readable {β : Type} (f : File β) (n : Nat) : Prop := ∃ ts, f = some ts ∧ ∀ i < n, ts[i]? ≠ some .bad

/-- the file can be opened and begins with `n` numbers -/
def Full {β : Type} (f : File β) (n : Nat) : Prop := ∃ ts, f = some ts ∧ ∀ i < n, ∃ v, ts[i]? = some (.num v)

theorem Full.readable {β : Type} {f : File β} {n : Nat} (h : Full f n) : Readable f n := by
  obtain ⟨ts, hf, h⟩ := h
  refine ⟨ts, hf, fun i hi hb => ?_⟩
  obtain ⟨v, hv⟩ := h i hi
  rw [hv] at hb
  cases hb

theorem fileVals_get {β : Type} (ts : List (Tok β)) (old : Nat → β) {n i : Nat} (h : i < n) :
    (fileVals ts old n)[i]? = some (match ts[i]? with | some (.num v) => v | _ => old i) := by
  simp [fileVals, h]

@[simp] theorem fileVals_length {β : Type} (ts : List (Tok β)) (old : Nat → β) (n : Nat) : (fileVals ts old n).length = n := by
  simp [fileVals]

section read
variable {β : Type}

theorem readLoop_cases (ts : List (Tok β)) (b : List β) (n : Nat) (hb : n ≤ b.length) :
    ((∀ i < n, ts[i]? ≠ some .bad) ∧ ∃ b', readLoop ts b n = .ok (.successfulReturn, b') ∧ b'.length = b.length ∧
      ∀ i, b'[i]? = if i < n then (match ts[i]? with | some (.num v) => some v | _ => b[i]?) else b[i]?) ∨
    ((∃ i < n, ts[i]? = some .bad) ∧ ∃ b', readLoop ts b n = .ok (.unableToReadFile, b')) := by
  have key := loopE_inv (σ := List (Tok β) × List β) (ρ := List β)
    (fun i s => s.1 = ts.drop i ∧ (∀ j < i, ts[j]? ≠ some .bad) ∧ s.2.length = b.length ∧
      ∀ j, s.2[j]? = if j < i then (match ts[j]? with | some (.num v) => some v | _ => b[j]?) else b[j]?)
    (fun _ => ∃ i < n, ts[i]? = some .bad) n
    (fun i (s : List (Tok β) × List β) => do
      let b ← store s.2 i (fscanf s.1).2.1
      if (fscanf s.1).1 = 0 then .ok (.inr b) else .ok (.inl ((fscanf s.1).2.2, b))) (ts, b)
    ⟨rfl, by simp, rfl, by simp⟩ (by
      rintro i hi ⟨t, c⟩ ⟨h1, h2, h3, h4⟩
      dsimp only at h1 h3 h4 ⊢
      cases ht : ts[i]? with
      | none =>
        left
        have h0 : t = [] := by rw [h1]; simpa using ht
        refine ⟨([], c), by rw [h0]; rfl, ?_, ?_, h3, ?_⟩
        · have := List.getElem?_eq_none_iff.mp ht
          rw [List.drop_of_length_le (by omega)]
        · intro j hj
          rcases Nat.lt_succ_iff_lt_or_eq.mp hj with h | h
          · exact h2 j h
          · rw [h, ht]; simp
        · intro j
          rw [h4]
          by_cases hj : j = i
          · subst hj; rw [if_neg (by omega), if_pos (by omega), ht]
          · by_cases hlt : j < i
            · rw [if_pos hlt, if_pos (by omega)]
            · rw [if_neg hlt, if_neg (by omega)]
      | some k =>
        obtain ⟨hlt, hk⟩ := List.getElem?_eq_some_iff.mp ht
        have h0 : t = k :: ts.drop (i + 1) := by rw [h1, List.drop_eq_getElem_cons hlt, hk]
        cases k with
        | bad =>
          right
          exact ⟨c, by rw [h0]; rfl, i, hi, ht⟩
        | num v =>
          left
          refine ⟨(ts.drop (i + 1), c.set i v), ?_, rfl, ?_, by simpa using h3, ?_⟩
          · rw [h0]
            simp only [fscanf, store]
            rw [wr, if_pos (by omega), ok_bind]
            rfl
          · intro j hj
            rcases Nat.lt_succ_iff_lt_or_eq.mp hj with h | h
            · exact h2 j h
            · rw [h, ht]; simp
          · intro j
            dsimp only
            rw [List.getElem?_set]
            by_cases hj : i = j
            · subst hj; rw [if_pos rfl, if_pos (by omega), if_pos (by omega), ht]
            · rw [if_neg hj, h4]
              by_cases hlt : j < i
              · rw [if_pos hlt, if_pos (by omega)]
              · rw [if_neg hlt, if_neg (by omega)])
  rcases key with ⟨s, h, _, h2, h3, h4⟩ | ⟨b', h, hE⟩
  · exact Or.inl ⟨h2, s.2, by rw [readLoop, h]; rfl, h3, h4⟩
  · exact Or.inr ⟨hE, b', by rw [readLoop, h]; rfl⟩

/-- C41: for every file and every array of at least `n` entries `readFromFile` comes back.  It reports success exactly if the
file can be opened and none of its first `n` tokens is something else than a number; the `i`-th number is then in the `i`-th
entry, and the entries from `n` on - and those for which the file holds no number - keep their old value. -/
theorem C41_read (f : File β) (b : List β) (n : Nat) (hb : n ≤ b.length) :
    ∃ r b', readFile f b n = .ok (r, b') ∧ (r = .successfulReturn ∨ r = .unableToReadFile) ∧
      (r = .successfulReturn ↔ Readable f n) ∧
      (r = .successfulReturn → ∀ ts, f = some ts → b'.length = b.length ∧
        ∀ i, b'[i]? = if i < n then (match ts[i]? with | some (.num v) => some v | _ => b[i]?) else b[i]?) := by
  cases f with
  | none =>
    refine ⟨_, _, rfl, Or.inr rfl, ⟨by simp, ?_⟩, by simp⟩
    rintro ⟨ts, h, _⟩
    cases h
  | some ts =>
    rcases readLoop_cases ts b n hb with ⟨h1, b', h2, h3, h4⟩ | ⟨⟨i, hi, h1⟩, b', h2⟩
    · exact ⟨_, b', h2, Or.inl rfl, ⟨fun _ => ⟨ts, rfl, h1⟩, fun _ => rfl⟩, by rintro _ _ ⟨⟩; exact ⟨h3, h4⟩⟩
    · refine ⟨_, b', h2, Or.inr rfl, ⟨by simp, ?_⟩, by simp⟩
      rintro ⟨_, ⟨⟩, h⟩
      exact absurd h1 (h i hi)

/-- C41: a file that begins with `n` numbers fills the array with them. -/
theorem C41_full (ts : List (Tok β)) (b : List β) (v : List β) (h : ts.take b.length = v.map .num) (hv : v.length = b.length) :
    readFile (some ts) b b.length = .ok (.successfulReturn, v) := by
  have hget : ∀ i < b.length, ts[i]? = (v[i]?).map .num := by
    intro i hi
    rw [← List.getElem?_map, ← h, List.getElem?_take_of_lt hi]
  obtain ⟨r, b', h1, _, h3, h4⟩ := C41_read (some ts) b b.length le_rfl
  have hr : r = .successfulReturn := h3.mpr ⟨ts, rfl, fun i hi => by
    rw [hget i hi, List.getElem?_eq_getElem (by omega)]; simp⟩
  subst hr
  obtain ⟨h5, h6⟩ := h4 rfl ts rfl
  rw [h1]
  congr 2
  refine List.ext_getElem? fun i => ?_
  rw [h6]
  split
  · rename_i hi
    rw [hget i hi, List.getElem?_eq_getElem (by omega)]
    rfl
  · rw [List.getElem?_eq_none (by omega), List.getElem?_eq_none (by omega)]

/-- C41 (a defect): a file with fewer than `n` numbers, even an empty one, is read with success; the missing entries keep the
values which the array happened to have. -/
theorem C41_short (v : List β) (b : List β) (h : v.length ≤ b.length) :
    readFile (some (v.map .num)) b b.length = .ok (.successfulReturn, v ++ b.drop v.length) := by
  obtain ⟨r, b', h1, _, h3, h4⟩ := C41_read (some (v.map Tok.num)) b b.length le_rfl
  have hr : r = .successfulReturn := h3.mpr ⟨_, rfl, fun i hi => by
    rw [List.getElem?_map]
    cases v[i]? <;> simp⟩
  subst hr
  obtain ⟨h5, h6⟩ := h4 rfl _ rfl
  rw [h1]
  congr 2
  refine List.ext_getElem? fun i => ?_
  rw [h6]
  by_cases hi : i < v.length
  · rw [if_pos (by omega), List.getElem?_append_left hi, List.getElem?_map, List.getElem?_eq_getElem hi]
    rfl
  · rw [List.getElem?_append_right (by omega), List.getElem?_drop, List.getElem?_map, List.getElem?_eq_none (by omega)]
    simp only [Option.map_none, ite_self]
    congr 1
    omega

/-- C41: `readFromFile` for `int` arrays does the same, except that a file which cannot be opened leads to `fclose(NULL)`. -/
theorem C41_int (f : File Int) (b : List Int) (n : Nat) :
    readFileInt f b n = if f = none then .error .null else readFile f b n := by
  cases f <;> rfl

/-- C41: `writeToFile` writes the first `n` entries, and `readFromFile` gets them back rounded to what was printed; a file that
cannot be opened leads to `fclose(NULL)`. -/
theorem C41_write (fmt : β → β) (b : List β) (n : Nat) (hb : n ≤ b.length) : ∃ ts,
    writeFile fmt true b n = .ok (.successfulReturn, ts) ∧ writeFile fmt false b n = .error .null ∧
    ∀ c : List β, c.length = n → readFile (some ts) c n = .ok (.successfulReturn, (b.take n).map fmt) := by
  have hl : loop n (fun i ts => do let v ← rd b i; .ok (ts ++ [.num (fmt v)])) [] =
      .ok ((b.take n).map fun v => Tok.num (fmt v)) := by
    have := loop_eq (fun i => (b.take i).map fun v => Tok.num (fmt v)) n
      (fun i ts => do let v ← rd b i; .ok (ts ++ [.num (fmt v)])) [] (by simp) (by
        intro i hi
        have hv : b[i]? = some b[i] := List.getElem?_eq_getElem (by omega)
        rw [rd_some hv, ok_bind, List.take_add_one, hv]
        simp only [Option.toList_some, List.map_append, List.map_cons, List.map_nil])
    exact this
  refine ⟨_, by rw [writeFile, if_pos rfl, hl, ok_bind], rfl, ?_⟩
  rintro c rfl
  refine C41_full _ c _ ?_ (by simpa using hb)
  rw [List.map_map, List.take_of_length_le (by simp)]
  rfl

end read

/-! ## loading from files -/

section load
variable {α : Type} [Scalar α] {n : Dims} {e : Env α} {o : Obj α} {a : FileArgs α}

/-- the arrays read from the files: `junk` stands for the entries which the files do not provide -/
def fileArr (junk : Nat → Nat → α) (site m : Nat) (f : Option (File α)) : Option (List α) :=
  f.map fun f => fileVals (f.getD []) (junk site) m

/-- the arguments which the files stand for -/
def FileArgs.arrays (a : FileArgs α) (junk : Nat → Nat → α) (n : Dims) : DenseArgs α where
  Q := fileArr junk 30 (n.nV * n.nV) a.Q
  g := fileArr junk 31 n.nV a.g
  L := fileArr junk 32 (n.nComp * n.nV) a.L
  R := fileArr junk 33 (n.nComp * n.nV) a.R
  lbL := fileArr junk 34 n.nComp a.lbL
  ubL := fileArr junk 35 n.nComp a.ubL
  lbR := fileArr junk 36 n.nComp a.lbR
  ubR := fileArr junk 37 n.nComp a.ubR
  A := fileArr junk 38 (n.nC * n.nV) a.A
  lbA := fileArr junk 39 n.nC a.lbA
  ubA := fileArr junk 40 n.nC a.ubA
  lb := fileArr junk 41 n.nV a.lb
  ub := fileArr junk 42 n.nV a.ub
  x0 := fileArr junk 43 n.nV a.x0
  y0 := fileArr junk 44 (n.nC + 2 * n.nComp) a.y0

/-- every given file satisfies `Ok` for the number of entries of its array -/
structure FileArgs.All (a : FileArgs α) (n : Dims) (Ok : File α → Nat → Prop) : Prop where
  Q : ∀ f, a.Q = some f → Ok f (n.nV * n.nV)
  g : ∀ f, a.g = some f → Ok f n.nV
  L : ∀ f, a.L = some f → Ok f (n.nComp * n.nV)
  R : ∀ f, a.R = some f → Ok f (n.nComp * n.nV)
  lbL : ∀ f, a.lbL = some f → Ok f n.nComp
  ubL : ∀ f, a.ubL = some f → Ok f n.nComp
  lbR : ∀ f, a.lbR = some f → Ok f n.nComp
  ubR : ∀ f, a.ubR = some f → Ok f n.nComp
  A : ∀ f, a.A = some f → Ok f (n.nC * n.nV)
  lbA : ∀ f, a.lbA = some f → Ok f n.nC
  ubA : ∀ f, a.ubA = some f → Ok f n.nC
  lb : ∀ f, a.lb = some f → Ok f n.nV
  ub : ∀ f, a.ub = some f → Ok f n.nV
  x0 : ∀ f, a.x0 = some f → Ok f n.nV
  y0 : ∀ f, a.y0 = some f → Ok f (n.nC + 2 * n.nComp)

theorem FileArgs.All.readable (h : a.All n Full) : a.All n Readable where
  Q f hf := (h.Q f hf).readable
  g f hf := (h.g f hf).readable
  L f hf := (h.L f hf).readable
  R f hf := (h.R f hf).readable
  lbL f hf := (h.lbL f hf).readable
  ubL f hf := (h.ubL f hf).readable
  lbR f hf := (h.lbR f hf).readable
  ubR f hf := (h.ubR f hf).readable
  A f hf := (h.A f hf).readable
  lbA f hf := (h.lbA f hf).readable
  ubA f hf := (h.ubA f hf).readable
  lb f hf := (h.lb f hf).readable
  ub f hf := (h.ub f hf).readable
  x0 f hf := (h.x0 f hf).readable
  y0 f hf := (h.y0 f hf).readable

/-- the names of the required files are given -/
structure FileArgs.Named (a : FileArgs α) : Prop where
  Q : a.Q ≠ none
  g : a.g ≠ none
  L : a.L ≠ none
  R : a.R ≠ none

theorem readOpt_cases (e : Env α) (site m : Nat) (f : Option (File α)) :
    ((∀ F, f = some F → Readable F m) ∧ readOpt e site m f = .ok (.successfulReturn, fileArr e.junk site m f)) ∨
    (¬ (∀ F, f = some F → Readable F m) ∧ ∃ b, readOpt e site m f = .ok (.unableToReadFile, b)) := by
  cases f with
  | none => exact Or.inl ⟨by simp, rfl⟩
  | some F =>
    obtain ⟨r, b', h1, h2, h3, h4⟩ := C41_read F (e.alloc site m) m (by simp [Env.alloc])
    by_cases hr : Readable F m
    · left
      have e1 := h3.mpr hr
      subst e1
      obtain ⟨ts, rfl, hb⟩ := hr
      obtain ⟨h5, h6⟩ := h4 rfl ts rfl
      refine ⟨by rintro _ ⟨⟩; exact ⟨ts, rfl, hb⟩, ?_⟩
      simp only [readOpt, h1, ok_bind, fileArr, Option.map_some, Option.getD_some]
      congr 3
      refine List.ext_getElem? fun i => ?_
      rw [h6]
      by_cases hi : i < m
      · rw [if_pos hi, fileVals_get _ _ hi]
        have : (e.alloc site m)[i]? = some (e.junk site i) := by simp [Env.alloc, hi]
        rw [this]
        cases ts[i]? with
        | none => rfl
        | some k => cases k <;> rfl
      · rw [if_neg hi, List.getElem?_eq_none (by simp [Env.alloc]; omega), List.getElem?_eq_none (by simp; omega)]
    · right
      have e1 : r = .unableToReadFile := by
        rcases h2 with h | h
        · exact absurd (h3.mp h) hr
        · exact h
      subst e1
      refine ⟨fun h => hr (h F rfl), some b', ?_⟩
      simp only [readOpt, h1, ok_bind]

theorem readReq_eq (e : Env α) (site m : Nat) {f : Option (File α)} (h : f ≠ none) :
    readReq e site m f = readOpt e site m f := by
  cases f with
  | none => exact absurd rfl h
  | some f => rfl

theorem thenRead_ok {τ : Type} {m : M (RV × τ)} {v : τ} {k : τ → M (RV × Obj α)} (h : m = .ok (.successfulReturn, v)) :
    thenRead m o k = k v := by
  rw [thenRead, h, ok_bind, if_neg (by simp)]

theorem thenRead_fail {τ : Type} {m : M (RV × τ)} {v : τ} {k : τ → M (RV × Obj α)} {P : Prop}
    (h : (P ∧ m = .ok (.successfulReturn, v)) ∨ (¬ P ∧ ∃ b, m = .ok (.unableToReadFile, b)))
    (hk : P → k v = failWith .unableToReadFile o) : thenRead m o k = failWith .unableToReadFile o := by
  rcases h with ⟨hp, h⟩ | ⟨_, b, h⟩
  · rw [thenRead_ok h, hk hp]
  · rw [thenRead, h, ok_bind, if_pos (by simp)]

theorem readOpt_ok {e : Env α} {site m : Nat} {f : Option (File α)} (h : ∀ F, f = some F → Readable F m) :
    readOpt e site m f = .ok (.successfulReturn, fileArr e.junk site m f) := by
  rcases readOpt_cases e site m f with ⟨_, h'⟩ | ⟨h', _⟩
  · exact h'
  · exact absurd h h'

/-- C41: loading from readable files is the dense load of the numbers in them, with arbitrary values for those entries for
which the files hold no number. -/
theorem C41_load (hn : o.d.dims = some n) (hV : n.nV ≠ 0) (hC : n.nComp ≠ 0) (ha : a.Named) (hr : a.All n Readable) :
    loadFiles e o a = loadDense e o (a.arrays e.junk n) := by
  rw [loadFiles, hn, initd_some, ok_bind, readReq_eq _ _ _ ha.Q, readReq_eq _ _ _ ha.g, readReq_eq _ _ _ ha.L,
    readReq_eq _ _ _ ha.R, thenRead_ok (readOpt_ok hr.Q)]
  rw [thenRead_ok (readOpt_ok hr.g), thenRead_ok (readOpt_ok hr.L), thenRead_ok (readOpt_ok hr.R),
    thenRead_ok (readOpt_ok hr.lbL), thenRead_ok (readOpt_ok hr.ubL), thenRead_ok (readOpt_ok hr.lbR),
    thenRead_ok (readOpt_ok hr.ubR), thenRead_ok (readOpt_ok hr.A), thenRead_ok (readOpt_ok hr.lbA),
    thenRead_ok (readOpt_ok hr.ubA), thenRead_ok (readOpt_ok hr.lb), thenRead_ok (readOpt_ok hr.ub),
    thenRead_ok (readOpt_ok hr.x0), thenRead_ok (readOpt_ok hr.y0)]
  rw [loadDense, hn, initd_some, ok_bind, if_neg (by simp [hV, hC])]
  rfl

/-- C41: if all files hold enough numbers, then the arguments read are determined by the files. -/
theorem C41_determined (hr : a.All n Full) (junk junk' : Nat → Nat → α) : a.arrays junk n = a.arrays junk' n := by
  have key : ∀ site m (f : Option (File α)), (∀ F, f = some F → Full F m) → fileArr junk site m f = fileArr junk' site m f := by
    intro site m f h
    cases f with
    | none => rfl
    | some F =>
      obtain ⟨ts, rfl, hv⟩ := h F rfl
      simp only [fileArr, Option.map_some, Option.getD_some]
      congr 1
      refine List.ext_getElem? fun i => ?_
      by_cases hi : i < m
      · obtain ⟨v, hv⟩ := hv i hi
        rw [fileVals_get _ _ hi, fileVals_get _ _ hi, hv]
      · rw [List.getElem?_eq_none (by simp; omega), List.getElem?_eq_none (by simp; omega)]
  simp only [FileArgs.arrays, key _ _ _ hr.Q, key _ _ _ hr.g, key _ _ _ hr.L, key _ _ _ hr.R, key _ _ _ hr.lbL,
    key _ _ _ hr.ubL, key _ _ _ hr.lbR, key _ _ _ hr.ubR, key _ _ _ hr.A, key _ _ _ hr.lbA, key _ _ _ hr.ubA,
    key _ _ _ hr.lb, key _ _ _ hr.ub, key _ _ _ hr.x0, key _ _ _ hr.y0]

/-- C41: if one of the given files cannot be opened or something else than a number is found among its first entries, then
UNABLE_TO_READ_FILE is returned and nothing but the message output changes. -/
theorem C41_unreadable (hn : o.d.dims = some n) (ha : a.Named) (hr : ¬ a.All n Readable) :
    loadFiles e o a = failWith .unableToReadFile o := by
  rw [loadFiles, hn, initd_some, ok_bind, readReq_eq _ _ _ ha.Q, readReq_eq _ _ _ ha.g, readReq_eq _ _ _ ha.L,
    readReq_eq _ _ _ ha.R]
  refine thenRead_fail (readOpt_cases _ _ _ _) fun r1 => ?_
  refine thenRead_fail (readOpt_cases _ _ _ _) fun r2 => ?_
  refine thenRead_fail (readOpt_cases _ _ _ _) fun r3 => ?_
  refine thenRead_fail (readOpt_cases _ _ _ _) fun r4 => ?_
  refine thenRead_fail (readOpt_cases _ _ _ _) fun r5 => ?_
  refine thenRead_fail (readOpt_cases _ _ _ _) fun r6 => ?_
  refine thenRead_fail (readOpt_cases _ _ _ _) fun r7 => ?_
  refine thenRead_fail (readOpt_cases _ _ _ _) fun r8 => ?_
  refine thenRead_fail (readOpt_cases _ _ _ _) fun r9 => ?_
  refine thenRead_fail (readOpt_cases _ _ _ _) fun r10 => ?_
  refine thenRead_fail (readOpt_cases _ _ _ _) fun r11 => ?_
  refine thenRead_fail (readOpt_cases _ _ _ _) fun r12 => ?_
  refine thenRead_fail (readOpt_cases _ _ _ _) fun r13 => ?_
  refine thenRead_fail (readOpt_cases _ _ _ _) fun r14 => ?_
  refine thenRead_fail (readOpt_cases _ _ _ _) fun r15 => ?_
  exact absurd ⟨r1, r2, r3, r4, r5, r6, r7, r8, r9, r10, r11, r12, r13, r14, r15⟩ hr

/-- C41 (a defect): without a name for the first file a null pointer is handed to `fopen`. -/
theorem C41_unnamed (hn : o.d.dims = some n) (h : a.Q = none) : loadFiles e o a = .error .null := by
  rw [loadFiles, hn, initd_some, ok_bind, h]
  rfl

theorem loop_oob {σ : Type} {m : Nat} {body : Nat → σ → M σ} (hb : ∀ i c f, body i c = .error f → f = .oob) (c : σ) {f : Fault}
    (h : loop m body c = .error f) : f = .oob := by
  induction m generalizing f with
  | zero => cases h
  | succ m ih =>
    rw [loop] at h
    cases hl : loop m body c with
    | ok d => rw [hl, ok_bind] at h; exact hb _ _ _ h
    | error f' =>
      rw [hl, error_bind] at h
      injection h with h
      rw [← h]
      exact ih hl

theorem copy_oob {y : List α} {i : Nat} {c : List α} {f : Fault} (h : (do let v ← rd y i; wr c i v : M (List α)) = .error f) :
    f = .oob := by
  unfold rd wr at h
  cases hy : y[i]? with
  | none => simp [hy] at h; exact h.symm
  | some v =>
    simp only [hy, ok_bind] at h
    split at h
    · cases h
    · injection h with h; exact h.symm

theorem loop_copy_short {y : List α} {m : Nat} (h : y.length < m) (b : List α) :
    loop m (fun i b => do let v ← rd y i; wr b i v) b = .error .oob := by
  cases hl : loop m (fun i b => do let v ← rd y i; wr b i v) b with
  | error f => rw [loop_oob (fun i c f => copy_oob) b hl]
  | ok c =>
    exfalso
    have hy : rd y y.length = .error .oob := by simp [rd]
    have : ∀ k, ∀ c, loop (y.length + 1 + k) (fun i b => do let v ← rd y i; wr b i v) b ≠ .ok c := by
      intro k
      induction k with
      | zero =>
        intro c hc
        rw [Nat.add_zero, loop, bind_eq_ok] at hc
        obtain ⟨d, _, hc⟩ := hc
        rw [hy] at hc
        cases hc
      | succ k ih =>
        intro c hc
        rw [← Nat.add_assoc, loop, bind_eq_ok] at hc
        obtain ⟨d, hd, _⟩ := hc
        exact ih d hd
    exact this (m - (y.length + 1)) c (by rw [show y.length + 1 + (m - (y.length + 1)) = m by omega]; exact hl)

theorem thenData_inv {m : M (RV × Data α)} {s : St α} {k : Data α → M (RV × Obj α)} {q : Obj α}
    (h : thenData m s k = .ok (.successfulReturn, q)) : ∃ d, m = .ok (.successfulReturn, d) ∧ k d = .ok (.successfulReturn, q) := by
  rw [thenData, bind_eq_ok] at h
  obtain ⟨⟨r, d⟩, h1, h⟩ := h
  split at h
  · rename_i hne
    injection h with h
    injection h with h
    exact absurd h hne
  · rename_i hne
    have : r = .successfulReturn := by simpa using hne
    subst this
    exact ⟨d, h1, h⟩

theorem setQ_dims {d : Data α} {Q : Option (List α)} {r : RV × Data α} (h : setQ d Q = .ok r) : r.2.dims = d.dims := by
  simp only [setQ, bind_eq_ok] at h
  obtain ⟨n, _, h⟩ := h
  split at h
  · injection h with h; rw [← h]
  · rw [bind_eq_ok] at h
    obtain ⟨_, _, h⟩ := h
    rw [bind_eq_ok] at h
    obtain ⟨_, _, h⟩ := h
    injection h with h; rw [← h]

theorem setG_dims {d : Data α} {g : Option (List α)} {r : RV × Data α} (h : setG d g = .ok r) : r.2.dims = d.dims := by
  simp only [setG, bind_eq_ok] at h
  obtain ⟨n, _, h⟩ := h
  split at h
  · injection h with h; rw [← h]
  · split at h
    · injection h with h; rw [← h]
    · rw [bind_eq_ok] at h
      obtain ⟨_, _, h⟩ := h
      injection h with h; rw [← h]

theorem setTmp_dims {d d' : Data α} {l u : Option (List α)} (h : setTmp d l u = .ok d') : d'.dims = d.dims := by
  simp only [setTmp, bind_eq_ok] at h
  obtain ⟨n, _, _, _, _, _, h⟩ := h
  injection h with h; rw [← h]

theorem setConstraints_dims {d : Data α} {L R A l u : Option (List α)} {r : RV × Data α}
    (h : setConstraints e d L R A l u = .ok r) : r.2.dims = d.dims := by
  simp only [setConstraints, bind_eq_ok] at h
  obtain ⟨n, _, h⟩ := h
  split at h
  · injection h with h; rw [← h]
  · split at h
    · injection h with h; rw [← h]
    · simp only [bind_eq_ok] at h
      obtain ⟨_, _, _, _, _, _, h⟩ := h
      split at h
      · simp only [bind_eq_ok] at h
        obtain ⟨_, _, _, _, _, _, h⟩ := h
        injection h with h; rw [← h]
      · injection h with h; rw [← h]

theorem setCompBounds_dims {d : Data α} {a b c f : Option (List α)} {r : RV × Data α}
    (h : setCompBounds e d a b c f = .ok r) : r.2.dims = d.dims := by
  simp only [setCompBounds, bind_eq_ok] at h
  obtain ⟨n, _, _, _, _, _, _, _, h⟩ := h
  split at h
  · injection h with h; rw [← h]
  · simp only [bind_eq_ok] at h
    obtain ⟨_, _, h⟩ := h
    split at h <;> (injection h with h; rw [← h])

/-- C41 (a defect): a dual guess cannot be loaded from a file.  Whenever the load without dual guess succeeds, the load with
it reads past the end of the array, which holds `nC + 2*nComp` numbers where `nV + nC + 2*nComp` are expected. -/
theorem C41_dual (hn : o.d.dims = some n) (hV : n.nV ≠ 0) (hC : n.nComp ≠ 0) (ha : a.Named) (hr : a.All n Readable)
    (hy : a.y0 ≠ none) {o' : Obj α} (h : loadFiles e o { a with y0 := none } = .ok (.successfulReturn, o')) :
    loadFiles e o a = .error .oob := by
  have hr' : ({ a with y0 := none } : FileArgs α).All n Readable := { hr with y0 := by simp }
  rw [C41_load (a := { a with y0 := none }) hn hV hC ⟨ha.Q, ha.g, ha.L, ha.R⟩ hr'] at h
  rw [C41_load hn hV hC ha hr]
  have hy' : ∃ y, fileArr e.junk 44 (n.nC + 2 * n.nComp) a.y0 = some y ∧ y.length = n.nC + 2 * n.nComp := by
    cases hc : a.y0 with
    | none => exact absurd hc hy
    | some f => exact ⟨_, rfl, fileVals_length _ _ _⟩
  obtain ⟨y, hy1, hy2⟩ := hy'
  rw [loadDense, hn, initd_some, ok_bind, if_neg (by simp [hV, hC])] at h ⊢
  obtain ⟨d1, h1, h⟩ := thenData_inv h
  obtain ⟨d2, h2, h⟩ := thenData_inv h
  rw [bind_eq_ok] at h
  obtain ⟨d3, h3, h⟩ := h
  obtain ⟨d4, h4, h⟩ := thenData_inv h
  obtain ⟨d5, h5, h⟩ := thenData_inv h
  have k1 : setQ o.d (a.arrays e.junk n).Q = .ok (.successfulReturn, d1) := h1
  have k2 : setG d1 (a.arrays e.junk n).g = .ok (.successfulReturn, d2) := h2
  have k3 : setTmp d2 (a.arrays e.junk n).lb (a.arrays e.junk n).ub = .ok d3 := h3
  have k4 : setConstraints e d3 (a.arrays e.junk n).L (a.arrays e.junk n).R (a.arrays e.junk n).A (a.arrays e.junk n).lbA
    (a.arrays e.junk n).ubA = .ok (.successfulReturn, d4) := h4
  have k5 : setCompBounds e d4 (a.arrays e.junk n).lbL (a.arrays e.junk n).ubL (a.arrays e.junk n).lbR (a.arrays e.junk n).ubR =
    .ok (.successfulReturn, d5) := h5
  rw [thenData, k1, ok_bind, if_neg (by simp), thenData, k2, ok_bind, if_neg (by simp), k3, ok_bind, thenData, k4, ok_bind,
    if_neg (by simp), thenData, k5, ok_bind, if_neg (by simp)]
  rw [thenSt, bind_eq_ok] at h
  obtain ⟨r, h6, _⟩ := h
  rw [setInitialGuess, bind_eq_ok] at h6
  obtain ⟨n', hn', h6⟩ := h6
  have hnn : n' = n := by
    have e1 := setQ_dims k1
    have e2 := setG_dims k2
    have e3 := setTmp_dims k3
    have e4 := setConstraints_dims k4
    have e5 := setCompBounds_dims k5
    rw [e5, e4, e3, e2, e1, hn] at hn'
    injection hn' with hn'
    exact hn'.symm
  subst hnn
  rw [if_neg (by simp [hV, hC]), bind_eq_ok] at h6
  obtain ⟨x, hx, _⟩ := h6
  have hx' : guessX (a.arrays e.junk n').x0 n'.nV = .ok x := hx
  have hyy : (a.arrays e.junk n').y0 = some y := hy1
  dsimp only at hn' ⊢
  rw [thenSt, setInitialGuess, hn', ok_bind, if_neg (by simp [hV, hC]), hx', ok_bind, hyy, guessY,
    loop_copy_short (by omega)]
  rfl

end load

namespace Ex

/-- a file with the given numbers -/
def fileOf (l : List ℚ) : File (Ext ℚ) := some ((emb l).map .num)

/-- the warm-up example as files -/
def fargs : FileArgs (Ext ℚ) where
  Q := some (fileOf [2, 0, 0, 2])
  g := some (fileOf [-2, -2])
  L := some (fileOf [1, 0])
  R := some (fileOf [0, 1])

theorem full_of {l : List ℚ} {m : Nat} (h : m ≤ l.length) : Full (fileOf l) m := by
  refine ⟨_, rfl, fun i hi => ?_⟩
  rw [List.getElem?_map, List.getElem?_eq_getElem (by simp; omega)]
  exact ⟨_, rfl⟩

theorem fargs_full : fargs.All dim Full := by
  constructor <;> rintro f ⟨⟩ <;> exact full_of (by decide)

-- loading the example from files stores the same as loading it from arrays
example : loadFiles env obj0 fargs = loadDense env obj0 args := by
  rw [C41_load (n := dim) rfl (by decide) (by decide) ⟨by decide, by decide, by decide, by decide⟩ fargs_full.readable]
  rfl

/-- with a dual guess the load fails -/
example : (loadFiles env obj0 { fargs with y0 := some (fileOf [1, 2]) }).map (·.1) = .error .oob := by decide +kernel

/-- a world with another memory content -/
def env7 : Env (Ext ℚ) := { env with junk := fun _ _ => .fin 7 }

/-- C41 (a defect): with a file that is too short the load succeeds, and the problem depends on what the memory held before. -/
theorem C41_garbage :
    (loadFiles env obj0 { fargs with g := some (fileOf [-2]) }).map (fun r => (r.1, r.2.d.g)) =
      .ok (.successfulReturn, some [.fin (-2), .nan]) ∧
    (loadFiles env7 obj0 { fargs with g := some (fileOf [-2]) }).map (fun r => (r.1, r.2.d.g)) =
      .ok (.successfulReturn, some [.fin (-2), .fin 7]) := by
  constructor <;> decide +kernel

-- the codes of `C41_unreadable`
example : (loadFiles env obj0 { fargs with g := some none }).map (·.1) = .ok .unableToReadFile ∧
    (loadFiles env obj0 { fargs with lb := some (some [.num (.fin 1), .bad]) }).map (·.1) = .ok .unableToReadFile := by
  constructor <;> decide +kernel

end Ex
end LCQ
