import Mathlib.Order.Nat
import Verif.Lemmas.MemoryHeld

/-!
# The blocks of the last load until the end of the object
-/

namespace LCQ.Mem

/-- the blocks from `n0` to `n1` were released or are held by a pointer in `D` -/
structure KS (n0 n1 : Nat) (D : List Slot) (h : Hp) : Prop where
  held : ∀ b, n0 ≤ b → b < n1 → Released h.tr b ∨ ∃ s ∈ D, h.ptr s = some b
  le : n1 ≤ h.next

variable {n0 n1 : Nat} {D D' : List Slot}

theorem NL.ks {h : Hp} (hn : NL n0 D h) : KS n0 h.next D h := ⟨hn.held, le_rfl⟩

theorem KS.weaken {h : Hp} (hk : KS n0 n1 D h) (hd : D ⊆ D') : KS n0 n1 D' h := by
  refine ⟨fun b h1 h2 => ?_, hk.le⟩
  rcases hk.held b h1 h2 with h3 | ⟨s, h3, h4⟩
  · exact .inl h3
  · exact .inr ⟨s, hd h3, h4⟩

theorem step_next (st : Step) (h : Hp) : h.next ≤ (st.op h).2.next := by
  have hf : ∀ s k, (Mem.free s k h).2.next = h.next := by
    intro s k
    unfold Mem.free
    cases h.ptr s <;> rfl
  cases st with
  | new s k => exact Nat.le_succ _
  | free s k => exact (hf s k).ge
  | drop s => exact le_rfl
  | del s k => exact (hf s k).ge
  | renew s k =>
    show h.next ≤ (Mem.free s k h).2.next + 1
    rw [hf]
    exact Nat.le_succ _
  | newIfNull s k =>
    show h.next ≤ (Mem.newIfNull s k h).2.next
    unfold Mem.newIfNull
    split
    · exact Nat.le_succ _
    · exact le_rfl
  | touch s =>
    show h.next ≤ (Mem.touch s h).2.next
    unfold Mem.touch
    cases h.ptr s <;> exact le_rfl
  | setSparse b => exact le_rfl

theorem Built.next {A : Step → Bool} {β : Type} {m : Op β} (hb : Built A m) (h : Hp) :
    h.next ≤ (m h).2.next :=
  hb.keeps (I := fun g => h.next ≤ g.next) (fun st _ g hg => hg.trans (step_next st g)) h le_rfl

/-- what happens to the list in one step; `none`: a block may be lost -/
def flow1 (D : List Slot) : Step → Option (List Slot)
  | .new s _ => if D.contains s then none else some D
  | .drop s => if D.contains s then none else some D
  | .del s _ => some (D.filter (· != s))
  | _ => some D

theorem KS.step {st : Step} {h : Hp} (hk : KS n0 n1 D h) (hf : flow1 D st = some D') :
    KS n0 n1 D' (st.op h).2 := by
  have hs : Starts h.tr (st.op h).2 := Starts.step st ⟨[], by simp⟩
  have hle := hk.le.trans (step_next st h)
  have same : D' = D → (∀ s ∈ D, st.sets s = false ∨ st.frees s = true) → KS n0 n1 D' (st.op h).2 := by
    rintro rfl hx
    refine ⟨fun b h1 h2 => ?_, hle⟩
    rcases hk.held b h1 h2 with h3 | ⟨s, h3, h4⟩
    · exact .inl (h3.mono hs)
    · rcases hx s h3 with h5 | h5
      · exact .inr ⟨s, h3, by rw [Step.ptr_of h5, h4]⟩
      · exact .inl (Step.released h5 h4)
  have fresh : ∀ t k, D.contains t = false → ∀ s ∈ D, (Step.new t k).sets s = false := by
    intro t k ht s hs
    simp only [Step.sets, beq_eq_false_iff_ne]
    rintro rfl
    simp [hs] at ht
  cases st with
  | new t k =>
    simp only [flow1] at hf
    split at hf
    · simp at hf
    · rename_i hc
      exact same (by simpa using hf.symm) fun s hs => .inl (fresh t k (by simpa using hc) s hs)
  | free t k => exact same (by simpa [flow1] using hf.symm) fun s _ => .inl rfl
  | drop t =>
    simp only [flow1] at hf
    split at hf
    · simp at hf
    · rename_i hc
      exact same (by simpa using hf.symm) fun s hs => .inl (fresh t .c (by simpa using hc) s hs)
  | del t k =>
    simp only [flow1, Option.some.injEq] at hf
    subst hf
    refine ⟨fun b h1 h2 => ?_, hle⟩
    rcases hk.held b h1 h2 with h3 | ⟨s, h3, h4⟩
    · exact .inl (h3.mono hs)
    · by_cases e : s = t
      · subst e
        exact .inl (Step.released (st := .del s k) (by simp [Step.frees]) h4)
      · refine .inr ⟨s, by simp [h3, e], ?_⟩
        rw [Step.ptr_of (by simp [Step.sets, Ne.symm e]), h4]
  | renew t k =>
    refine same (by simpa [flow1] using hf.symm) fun s _ => ?_
    by_cases e : s = t
    · exact .inr (by simp [Step.frees, e])
    · exact .inl (by simp [Step.sets, Ne.symm e])
  | newIfNull t k =>
    simp only [flow1, Option.some.injEq] at hf
    subst hf
    show KS n0 n1 D (Mem.newIfNull t k h).2
    unfold Mem.newIfNull
    split
    · rename_i e
      refine ⟨fun b h1 h2 => ?_, Nat.le_succ_of_le hk.le⟩
      rcases hk.held b h1 h2 with ⟨k', h3⟩ | ⟨s, h3, h4⟩
      · exact .inl ⟨k', by simp [Mem.new, h3]⟩
      · refine .inr ⟨s, h3, ?_⟩
        have : s ≠ t := by
          rintro rfl
          rw [e] at h4
          simp at h4
        simpa [Mem.new, this] using h4
    · exact hk
  | touch t => exact same (by simpa [flow1] using hf.symm) fun s _ => .inl rfl
  | setSparse b => exact same (by simpa [flow1] using hf.symm) fun s _ => .inl rfl

/-- straight-line code -/
def flow (D : List Slot) : List Step → Option (List Slot)
  | [] => some D
  | st :: r => (flow1 D st).bind fun D1 => flow D1 r

theorem KS.steps {l : List Step} : ∀ {D : List Slot} {h : Hp}, KS n0 n1 D h → flow D l = some D' →
    KS n0 n1 D' (steps l h).2 := by
  induction l with
  | nil =>
    intro D h hk hf
    simp only [flow, Option.some.injEq] at hf
    subst hf
    exact hk
  | cons st r ih =>
    intro D h hk hf
    simp only [flow, Option.bind_eq_some_iff] at hf
    obtain ⟨D1, h1, h2⟩ := hf
    show KS n0 n1 D' (each Step.op (st :: r) h).2
    rw [each, bind_apply]
    exact ih (hk.step h1) h2

/-- steps that lose nothing held by `D` -/
def Spare (D : List Slot) : Step → Bool
  | .new s _ => !D.contains s
  | .drop s => !D.contains s
  | .del s _ => !D.contains s
  | .setSparse _ => false
  | _ => true

theorem KS.built {β : Type} {m : Op β} (hm : Built (Spare D) m) {h : Hp} (hk : KS n0 n1 D h) :
    KS n0 n1 D (m h).2 := by
  refine hm.keeps (I := KS n0 n1 D) (fun st hs h hk => ?_) h hk
  have hf : ∃ D1, flow1 D st = some D1 ∧ D1 ⊆ D := by
    cases st with
    | new s k =>
      simp [Spare] at hs
      exact ⟨D, by simp [flow1, hs], fun _ h => h⟩
    | drop s =>
      simp [Spare] at hs
      exact ⟨D, by simp [flow1, hs], fun _ h => h⟩
    | del s k => exact ⟨_, rfl, fun _ ht => (List.mem_filter.1 ht).1⟩
    | _ => exact ⟨D, rfl, fun _ h => h⟩
  obtain ⟨D1, h1, h2⟩ := hf
  exact (hk.step h1).weaken h2

theorem KS.keep {β : Type} {m : Op β} (hm : Built Keep m) (hD : ∀ s ∈ D, s.isData = true) {h : Hp}
    (hk : KS n0 n1 D h) : KS n0 n1 D (m h).2 := by
  refine hm.keeps (I := KS n0 n1 D) (fun st hs h hk => ?_) h hk
  have hnot : ∀ s : Slot, s.isData = false → s ∉ D := fun s h1 h2 => by
    rw [hD s h2] at h1
    simp at h1
  have hf : ∃ D1, flow1 D st = some D1 ∧ D1 ⊆ D := by
    cases st with
    | new s k =>
      simp [Keep] at hs
      exact ⟨D, by simp [flow1, hnot s hs], fun _ h => h⟩
    | drop s =>
      simp [Keep] at hs
      exact ⟨D, by simp [flow1, hnot s hs.1], fun _ h => h⟩
    | del s k => exact ⟨_, rfl, fun _ ht => (List.mem_filter.1 ht).1⟩
    | setSparse b => simp [Keep] at hs
    | _ => exact ⟨D, rfl, fun _ h => h⟩
  obtain ⟨D1, h1, h2⟩ := hf
  exact (hk.step h1).weaken h2

theorem Built.sparse {A : Step → Bool} {β : Type} {m : Op β} (hm : Built A m)
    (hA : ∀ b, A (.setSparse b) = false) (h : Hp) : (m h).2.sparse = h.sparse := by
  refine hm.keeps (I := fun g => g.sparse = h.sparse) (fun st hs g hg => ?_) h rfl
  have hf : ∀ s k, (Mem.free s k g).2.sparse = g.sparse := by
    intro s k
    unfold Mem.free
    cases g.ptr s <;> rfl
  cases st with
  | new s k => exact hg
  | free s k => exact (hf s k).trans hg
  | drop s => exact hg
  | del s k => exact (hf s k).trans hg
  | renew s k => exact (hf s k).trans hg
  | newIfNull s k =>
    show (Mem.newIfNull s k g).2.sparse = _
    unfold Mem.newIfNull
    split <;> exact hg
  | touch s =>
    show (Mem.touch s g).2.sparse = _
    unfold Mem.touch
    cases g.ptr s <;> exact hg
  | setSparse b => simp [hA] at hs

/-! ## runs keep the loaded problem -/

theorem osClear_keep (w : Who) : Built Keep (osClear w) := by
  rw [osClear_eq]
  exact .bind (.free rfl) fun _ => (osRest_built w).runKeep

theorem osCopy_keep (v w : Who) : Built Keep (osCopy v w false) := by
  rw [osCopy_eq]
  exact .bind (osClear_keep v) fun _ => (osFill_built v w).runKeep

theorem buildOsqp_keep : Built Keep buildOsqp :=
  .bind (osNewMats_built _).runKeep fun _ => .bind (osCopy_keep _ _) fun _ =>
    .bind (osEnd_built (by decide)).runKeep fun _ => .bind (osCopy_keep _ _) fun _ =>
    .bind (osCopy_keep _ _) fun _ => .bind (osEnd_built (by decide)).runKeep fun _ =>
    (subEnd_built (by decide)).runKeep

theorem chooseSolver_keep (sel : Sel) : Built Keep (chooseSolver sel) := by
  by_cases hs : sel = .osqp
  · subst hs
    have h1 := buildOsqp_keep
    have h2 := shiftGuess_built.runKeep
    have h3 : Built Keep (touchCsc .Q) := touchCsc_built _ fun _ => rfl
    have h4 : Built Keep (touchCsc .A) := touchCsc_built _ fun _ => rfl
    unfold chooseSolver
    dsimp only
    built
  · exact (chooseSolver_qp hs).runKeep

theorem firstSolve_keep (c : Run) : Built Keep (firstSolve c) := by
  unfold firstSolve
  refine .bind (touchArrs_built _).runKeep fun _ => ?_
  cases c.sel
  case osqp =>
    refine .bind (osData_built _).runKeep fun _ => .bind ?_ fun _ => .touch rfl
    unfold osSetup
    exact .bind (.each fun _ _ => .touch rfl) fun _ => .bind (osTouch_built _).runKeep fun _ =>
      .when (.new rfl)
  all_goals exact .each fun _ _ => .touch rfl

theorem run_keep (c : Run) : Built Keep (run c) := by
  have h0 := chooseSolver_keep c.sel
  have h1 := (initRest_built c.sel).runKeep
  have h2 := (touchArrs_built [.gk, .g, .gTilde, .xk, .C]).runKeep
  have h3 : Built Keep (touchCsc .C) := touchCsc_built _ fun _ => rfl
  have h4 := firstSolve_keep c
  have h5 := ensureIterates_built.runKeep
  have h6 := setQk_built.runKeep
  have h7 := (loopActs_built c c.acts).useKeep
  have h8 := finish_built.runKeep
  unfold run
  built

/-! ## mode switches -/

/-- `switchToSparseMode` in dense mode -/
def toSparseSteps : List Step :=
  [(Csc.Q, Arr.Q), (.A, .A), (.L, .L), (.R, .R), (.C, .C)].flatMap (fun x =>
    .touch (.arr x.2) :: [Part.p, .i, .x, .s].map fun q => .new (.csc x.1 q) .c) ++
  [Arr.Q, .A, .L, .R, .C].map (fun a => .del (.arr a) .arr) ++ [.setSparse true]

theorem toCsc_steps (m : Csc) (a : Arr) (h : Hp) : toCsc m a h =
    each Step.op (.touch (.arr a) :: [Part.p, .i, .x, .s].map fun q => .new (.csc m q) .c) h := by
  rw [each, each_map, bind_apply]
  unfold toCsc
  rw [bind_apply]
  rfl

theorem switchToSparse_steps {h : Hp} (hs : h.sparse = false) :
    (switchToSparse h).2 = (steps toSparseSteps h).2 := by
  unfold steps toSparseSteps
  simp only [each_append, each_flatMap]
  rw [each_map]
  unfold switchToSparse
  rw [bind_apply, isSparse_fst, hs, isSparse_snd]
  simp only [Bool.false_eq_true, if_false, bind_apply, toCsc_steps, each_one, each]
  rfl

theorem switchToSparse_id {h : Hp} (hs : h.sparse = true) : (switchToSparse h).2 = h := by
  unfold switchToSparse
  rw [bind_apply, isSparse_fst, hs, isSparse_snd]
  rfl

theorem touch_sparse (s : Slot) (h : Hp) : (touch s h).2.sparse = h.sparse := by
  unfold touch; split <;> rfl

theorem touch_ptr (s : Slot) (h : Hp) : (touch s h).2.ptr = h.ptr := by
  unfold touch; split <;> rfl

/-- the conversions of `switchToDenseMode` -/
def toDnsAll (ok : Arr → Bool) : Op Unit := do
  toDns (ok .Q) .Q .Q
  toDns (ok .A) .A .A
  toDns (ok .L) .L .L
  toDns (ok .R) .R .R
  toDns (ok .C) .C .C

/-- the releases of `switchToDenseMode` -/
def toDenseSteps : List Step :=
  [Csc.C, .A, .Q, .L, .R].flatMap (fun m => [Part.p, .i, .x, .s].map fun q => .del (.csc m q) .c) ++
  [.setSparse false]

theorem switchToDense_eq (ok : Arr → Bool) {h : Hp} (hs : h.sparse = true) :
    (switchToDense ok h).2 =
      if ok .Q && ok .A && ok .L && ok .R && ok .C then (steps toDenseSteps (toDnsAll ok h).2).2
      else (toDnsAll ok h).2 := by
  unfold switchToDense toDnsAll
  rw [bind_apply, isSparse_fst, hs, isSparse_snd]
  simp only [if_true, bind_apply]
  split
  · unfold steps toDenseSteps
    simp only [each_append, each_flatMap, each_map, bind_apply, each_one]
    have e2 : delCsc = fun m => each (fun q => del (.csc m q) .c) [.p, .i, .x, .s] := rfl
    rw [e2]
    rfl
  · rfl

theorem switchToDense_id (ok : Arr → Bool) {h : Hp} (hs : h.sparse = false) :
    (switchToDense ok h).2 = h := by
  unfold switchToDense
  rw [bind_apply, isSparse_fst, hs, isSparse_snd]
  rfl

theorem steps_sparse {l : List Step} {b : Bool} (h : Hp) :
    (steps (l ++ [.setSparse b]) h).2.sparse = b := by
  unfold steps
  rw [each_append, each_one]
  rfl

/-- members that hold the problem -/
def dataSlots (sparse : Bool) : List Slot := if sparse then sparseSlots else denseSlots

theorem dataSlots_data (b : Bool) : ∀ s ∈ dataSlots b, s.isData = true := by
  cases b <;> decide +kernel

theorem dataSlots_owned (b : Bool) : ∀ s ∈ dataSlots b, s.owned = true := by
  cases b <;> decide +kernel

/-- the blocks from `n0` to `n1` were released or belong to the loaded problem -/
def Last (n0 n1 : Nat) (h : Hp) : Prop := KS n0 n1 (dataSlots h.sparse) h

theorem Last.keep {β : Type} {m : Op β} (hm : Built Keep m) {h : Hp} (hl : Last n0 n1 h) :
    Last n0 n1 (m h).2 := by
  unfold Last
  rw [hm.sparse fun _ => rfl]
  exact KS.keep hm (dataSlots_data _) hl

theorem Last.toSparse {h : Hp} (hl : Last n0 n1 h) : Last n0 n1 (switchToSparse h).2 := by
  cases hs : h.sparse with
  | true => rwa [switchToSparse_id hs]
  | false =>
    rw [switchToSparse_steps hs]
    unfold Last at hl ⊢
    rw [hs] at hl
    have : (steps toSparseSteps h).2.sparse = true := steps_sparse h
    rw [this]
    have hf : flow (dataSlots false) toSparseSteps = some ((dataSlots false).filter fun s =>
        !([.arr .Q, .arr .A, .arr .L, .arr .R, .arr .C] : List Slot).contains s) := by
      decide +kernel
    exact (hl.steps hf).weaken (by decide +kernel)

theorem Last.toDense (ok : Arr → Bool) {h : Hp} (hl : Last n0 n1 h) :
    Last n0 n1 (switchToDense ok h).2 := by
  cases hs : h.sparse with
  | false => rwa [switchToDense_id ok hs]
  | true =>
    have hb : ∀ b a m, a ∈ [Arr.Q, .A, .L, .R, .C] → Built (Spare sparseSlots) (toDns b a m) := by
      intro b a m ha
      have h1 : Built (Spare sparseSlots) (touchCsc m) := touchCsc_built m fun _ => rfl
      have h2 : (Spare sparseSlots (.new (.arr a) .arr)) = true := by
        revert a
        decide +kernel
      have h3 : Spare sparseSlots (.drop (.arr a)) = true := h2
      exact .bind h1 fun _ => .bind (.newA h2) fun _ => .bind (.touch rfl) fun _ =>
        .when (.drop h3)
    have hb : Built (Spare sparseSlots) (toDnsAll ok) :=
      .bind (hb _ _ _ (by simp)) fun _ => .bind (hb _ _ _ (by simp)) fun _ =>
        .bind (hb _ _ _ (by simp)) fun _ => .bind (hb _ _ _ (by simp)) fun _ => hb _ _ _ (by simp)
    have hsp : (toDnsAll ok h).2.sparse = true := by
      rw [hb.sparse (fun _ => rfl), hs]
    unfold Last at hl
    rw [hs] at hl
    have h1 : KS n0 n1 sparseSlots (toDnsAll ok h).2 := KS.built hb hl
    rw [switchToDense_eq ok hs]
    split
    · unfold Last
      have : (steps toDenseSteps (toDnsAll ok h).2).2.sparse = false := steps_sparse _
      rw [this]
      have hf : flow sparseSlots toDenseSteps = some (sparseSlots.filter fun s =>
          match s with | .csc _ _ => false | _ => true) := by decide +kernel
      exact (h1.steps hf).weaken (by decide +kernel)
    · unfold Last
      rw [hsp]
      exact h1

end LCQ.Mem
