import Verif.Lemmas.PythonScriptsRun
import Verif.Props.FromFile

/-!
# C80: the example scripts of the Python interface that read files
-/

namespace LCQ.PyScript
open Scalar FromFile

/-- C80: number of lines of a text file; of a file that does not exist or cannot be read Python raises an exception. -/
theorem C80_count (t : List Char) : count (some (some t)) = .ok (lineCount (universal t)) ∧
    count none = .error (.raised "FileNotFoundError") ∧ count (some none) = .error (.raised "PermissionError") :=
  ⟨by rw [count, countLines_eq _ _ _ (le_refl _), Nat.zero_add], rfl, rfl⟩

theorem universal_line (l t : List Char) (h : ∀ c ∈ l, c ≠ '\r') : universal (l ++ t) = l ++ universal t := by
  induction l with
  | nil => rfl
  | cons c l ih =>
    have hc := h c (by simp)
    rw [List.cons_append, List.cons_append, universal.eq_def]
    split
    · rename_i h'; cases h'
    · rename_i h'; injection h' with h' _; exact absurd h' hc
    · rename_i h'; injection h' with h' _; exact absurd h' hc
    · rename_i h'
      injection h' with h1 h2
      rw [← h1, ← h2, ih fun c hc => h c (by simp [hc])]

/-- C80: the lines of a file may end like those of Unix or of Windows. -/
theorem C80_newlines : ∀ ls : List (List Char × List Char),
    (∀ p ∈ ls, (∀ c ∈ p.1, c ≠ '\n' ∧ c ≠ '\r') ∧ (p.2 = ['\n'] ∨ p.2 = ['\r', '\n'])) →
    count (some (some (ls.flatMap fun p => p.1 ++ p.2))) = .ok ls.length := by
  intro ls h
  rw [(C80_count _).1]
  congr 1
  induction ls with
  | nil => rfl
  | cons p ls ih =>
    obtain ⟨h1, h2⟩ := h p (by simp)
    have hu : universal (((p :: ls).flatMap fun p => p.1 ++ p.2)) = p.1 ++ '\n' :: universal (ls.flatMap fun p => p.1 ++ p.2) := by
      rw [List.flatMap_cons, List.append_assoc, universal_line _ _ fun c hc => (h1 c hc).2]
      rcases h2 with h2 | h2
      · rw [h2]
        show _ ++ universal (['\n'] ++ _) = _
        rw [universal_line _ _ (by simp)]
        rfl
      · rw [h2]
        rfl
    rw [hu, lineCount_line _ _ fun hc => (h1 _ hc).1 rfl, ih fun q hq => h q (by simp [hq])]
    rfl

/-- C80: a missing file with lower bounds, with `L` or with `A` ends the scripts with an exception.  (The first two are opened before
the number of variables is used.) -/
theorem C80_files_missing (e : Env Dbl) (d : Dir) (args : Dir → FileArgs Dbl) (qd sd fuel : Nat) :
    (d.lb = none → fromFile e d args qd sd fuel = .error (.raised "FileNotFoundError")) ∧
    (∀ k, count d.lb = .ok k → d.L = none → fromFile e d args qd sd fuel = .error (.raised "FileNotFoundError")) ∧
    (∀ k, count d.L = .ok k → count d.lb = .ok 0 → fromFile e d args qd sd fuel = .error (.raised "ZeroDivisionError")) ∧
    (∀ k nV, nV ≠ 0 → count d.L = .ok k → count d.lb = .ok nV → d.A = none →
      fromFile e d args qd sd fuel = .error (.raised "FileNotFoundError")) := by
  refine ⟨?_, ?_, ?_, ?_⟩
  · intro h
    rw [fromFile, h]
    rfl
  · intro k hk h
    rw [fromFile, hk, h]
    rfl
  · intro k hk h
    rw [fromFile, h, hk, py_bind, py_bind, if_pos rfl]
  · intro k nV hV hk h hA
    rw [fromFile, h, hk, py_bind, py_bind, if_neg hV, hA]
    rfl

theorem fromFile_eq {e : Env Dbl} {d : Dir} {args : Dir → FileArgs Dbl} {qd sd fuel nV kL kA : Nat} (h1 : count d.lb = .ok nV)
    (h2 : count d.L = .ok kL) (h3 : count d.A = .ok kA) (hV : nV ≠ 0) : fromFile e d args qd sd fuel =
      solve e fuel (problem qd sd nV (kA / nV : Nat) (kL / nV : Nat) (WarmUp.opts qd sd 1)) (fun o => loadFiles e o (args d)) >>= fun r =>
        .ok (r.map Prod.fst) := by
  rw [fromFile, h1, h2, h3, py_bind, py_bind, if_neg hV, py_bind, sparse_opts, py_bind]
  congr 1
  funext r
  cases r <;> rfl

/-- C80: which files the two scripts hand over.  Neither the bounds on the variables nor an initial guess of the multipliers are. -/
theorem C80_files_args (d : Dir) :
    fileArgs d =
      { ({ Q := none, g := none, L := none, R := none } : FileArgs Dbl) with
        Q := some (FromFile.file d.Q)
        g := some (FromFile.file d.g)
        L := some (FromFile.file d.L)
        R := some (FromFile.file d.R)
        A := some (FromFile.file d.A)
        lbA := some (FromFile.file d.lbA)
        ubA := some (FromFile.file d.ubA)
        x0 := some (FromFile.file d.x0) } ∧
    generalizedArgs d =
      { ({ Q := none, g := none, L := none, R := none } : FileArgs Dbl) with
        Q := some (FromFile.file d.Q)
        g := some (FromFile.file d.g)
        L := some (FromFile.file d.L)
        R := some (FromFile.file d.R)
        lbL := some (FromFile.file d.lbL)
        ubL := some (FromFile.file d.ubL)
        lbR := some (FromFile.file d.lbR)
        ubR := some (FromFile.file d.ubR)
        A := some (FromFile.file d.A)
        lbA := some (FromFile.file d.lbA)
        ubA := some (FromFile.file d.ubA)
        x0 := some (FromFile.file d.x0) } :=
  ⟨rfl, rfl⟩

/-- C80 (a defect): with fewer lines in `L.txt` than in `lb.txt` the constructor refuses the dimensions, which the scripts do not notice;
uninitialised members are used. -/
theorem C80_files_nocomp (e : Env Dbl) (d : Dir) (args : Dir → FileArgs Dbl) {qd sd fuel nV kL kA : Nat} (h1 : count d.lb = .ok nV)
    (h2 : count d.L = .ok kL) (h3 : count d.A = .ok kA) (hV : nV ≠ 0) (hC : kL < nV) :
    fromFile e d args qd sd fuel = .error (.fault .uninit) := by
  have hd : (problem qd sd nV (kA / nV : Nat) (kL / nV : Nat) (WarmUp.opts qd sd 1) : Obj Dbl).d.dims = none :=
    ((C39_dims (Options.default qd sd : Options Dbl) nV (kA / nV : Nat) (kL / nV : Nat)).2 (by
      rw [Nat.div_eq_of_lt hC]; simp)).1
  rw [fromFile_eq h1 h2 h3 hV, solve, loadFiles, hd, initd_none]
  rfl

theorem named_fits {a : FileArgs Dbl} (ha : a.Named) (hy : a.y0 = none) (j : Nat → Nat → Dbl) (n : Dims) : (a.arrays j n).Fits n := by
  have key : ∀ s m (f : Option (File Dbl)) v, fileArr j s m f = some v → m ≤ v.length := by
    intro s m f v h
    cases f with
    | none => cases h
    | some f =>
      injection h with h
      rw [← h]
      simp
  have req : ∀ s m (f : Option (File Dbl)), f ≠ none → ∃ v, fileArr j s m f = some v := by
    intro s m f h
    cases f with
    | none => exact absurd rfl h
    | some f => exact ⟨_, rfl⟩
  obtain ⟨Q, hQ⟩ := req 30 (n.nV * n.nV) _ ha.Q
  obtain ⟨L, hL⟩ := req 32 (n.nComp * n.nV) _ ha.L
  obtain ⟨R, hR⟩ := req 33 (n.nComp * n.nV) _ ha.R
  exact { Q := ⟨Q, hQ, key _ _ _ _ hQ⟩, L := ⟨L, hL, key _ _ _ _ hL⟩, R := ⟨R, hR, key _ _ _ _ hR⟩, g := key _ _ _, A := key _ _ _,
          lbA := key _ _ _, ubA := key _ _ _, lbL := key _ _ _, ubL := key _ _ _, lbR := key _ _ _, ubR := key _ _ _,
          lb := key _ _ _, ub := key _ _ _, x0 := key _ _ _, y0 := by intro v h; simp [FileArgs.arrays, hy, fileArr] at h }

/-- C80 (a defect; any arithmetic of the QP answers): the scripts load dense arrays and ask for the sparse QP solver.  Whatever is in the
files, nothing is undefined (apart from the cases above), the run is refused without a QP being solved, and the last message is the one
about the run; the message about loading is printed if the files are not as expected. -/
theorem C80_files_never (e : Env Dbl) (d : Dir) {args : Dir → FileArgs Dbl} (hargs : args = fileArgs ∨ args = generalizedArgs)
    {qd sd fuel nV kL kA : Nat} (h1 : count d.lb = .ok nV) (h2 : count d.L = .ok kL) (h3 : count d.A = .ok kA) (hV : nV ≠ 0)
    (hC : nV ≤ kL) :
    ∃ r o o', loadFiles e (problem qd sd nV (kA / nV : Nat) (kL / nV : Nat) (WarmUp.opts qd sd 1)) (args d) = .ok (r, o) ∧
      (¬ (args d).All ⟨nV, kA / nV, kL / nV⟩ Readable → r = .unableToReadFile) ∧
      ((args d).All ⟨nV, kA / nV, kL / nV⟩ Readable → loadFiles e (problem qd sd nV (kA / nV : Nat) (kL / nV : Nat) (WarmUp.opts qd sd 1)) (args d) =
          loadDense e (problem qd sd nV (kA / nV : Nat) (kL / nV : Nat) (WarmUp.opts qd sd 1)) ((args d).arrays e.junk ⟨nV, kA / nV, kL / nV⟩) ∧
        (args = fileArgs → r = .successfulReturn)) ∧
      runSolver e fuel o = .ok (some (.denseSparseMissmatch, o')) ∧ o'.s.calls = o.s.calls ∧
      fromFile e d args qd sd fuel =
        .ok (some ((if r = .successfulReturn then [] else ["Failed to load LCQP."]) ++ ["Failed to solve LCQP."])) := by
  have hC' : 1 ≤ kL / nV := (Nat.one_le_div_iff (by omega)).2 hC
  have hC0 : (0 : Int) ≤ ((kA / nV : Nat) : Int) := Int.natCast_nonneg _
  set n : Dims := ⟨nV, kA / nV, kL / nV⟩ with hn
  set o0 : Obj Dbl := problem qd sd nV (kA / nV : Nat) (kL / nV : Nat) (WarmUp.opts qd sd 1) with ho0
  have hd : o0.d.dims = some n :=
    ((C39_dims (Options.default qd sd : Options Dbl) nV (kA / nV : Nat) (kL / nV : Nat)).1 (by omega)).1
  have hsp : o0.d.sparse = false := by
    rw [ho0, problem, Obj.new]
    dsimp only
    rw [if_neg (by omega), if_neg (by omega), if_neg (by omega)]
    rfl
  have hnV : n.nV ≠ 0 := hV
  have hnC : n.nComp ≠ 0 := by simp only [hn]; omega
  have hna : (args d).Named := by rcases hargs with rfl | rfl <;> exact ⟨by nofun, by nofun, by nofun, by nofun⟩
  have hy : (args d).y0 = none := by rcases hargs with rfl | rfl <;> rfl
  have hAg : ((args d).arrays e.junk n).g ≠ none ∧ ((args d).arrays e.junk n).A ≠ none := by
    rcases hargs with rfl | rfl <;> exact ⟨by nofun, by nofun⟩
  obtain ⟨r, o, hl, hr1, hr2⟩ : ∃ r o, loadFiles e o0 (args d) = .ok (r, o) ∧ (¬ (args d).All n Readable → r = .unableToReadFile) ∧
      ((args d).All n Readable → loadFiles e o0 (args d) = loadDense e o0 ((args d).arrays e.junk n) ∧
        (args = fileArgs → r = .successfulReturn)) := by
    by_cases h : (args d).All n Readable
    · have hl := C41_load (e := e) hd hnV hnC hna h
      obtain ⟨r, o, h', hr⟩ := C15_codes e o0 n _ hd hnV hnC (named_fits hna hy e.junk n)
      refine ⟨r, o, hl.trans h', fun h' => absurd h h', fun _ => ⟨hl, ?_⟩⟩
      rintro rfl
      rw [hr, if_neg hAg.1, if_neg (fun h => hAg.2 h.1), if_neg]
      rintro (⟨_, h, _⟩ | ⟨_, h, _⟩) <;> exact nomatch h
    · have hl := C41_unreadable (e := e) hd hna h
      exact ⟨_, _, hl, fun _ => rfl, fun h' => absurd h' h⟩
  have hk := loadFiles_loads hl
  have hs : o.d.sparse = false := by
    rw [hk.2, hsp]
    split <;> rfl
  obtain ⟨o', hr, hs'⟩ := refused e fuel (hk.1.dims.trans hd) hs (Or.inl (by rw [hk.1.opts]; rfl))
  refine ⟨r, o, o', hl, hr1, hr2, hr, by rw [hs']; rfl, ?_⟩
  rw [fromFile_eq h1 h2 h3 hV, solve_eq (load := fun o => loadFiles e o (args d)) hl hr]
  rfl

end LCQ.PyScript
