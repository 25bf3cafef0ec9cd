import Verif.Lemmas.MemoryEnd

/-!
# Which arrays a run reads or writes
-/

namespace LCQ.Mem

/-- the program reads or writes the block which `s` points to when it starts -/
def Uses {β : Type} (m : Op β) (s : Slot) : Prop :=
  ∀ h b, h.ptr s = some b → ∃ u, (m h).2.tr = h.tr ++ u ∧ HEv.use b ∈ u

/-- the step does not change the pointer -/
def NotSet (s : Slot) : Step → Bool
  | .new t _ => t ≠ s
  | .free _ _ => true
  | .drop t => t ≠ s
  | .del t _ => t ≠ s
  | .renew t _ => t ≠ s
  | .newIfNull _ _ => true
  | .touch _ => true
  | .setSparse _ => true

theorem NotSet.step {s : Slot} {b : Nat} {st : Step} (hs : NotSet s st = true) {h : Hp} (hb : h.ptr s = some b) :
    (st.op h).2.ptr s = some b := by
  cases st with
  | new t k =>
    have : s ≠ t := Ne.symm (of_decide_eq_true hs)
    simp [Step.op, Mem.new, this, hb]
  | free t k =>
    simp only [Step.op, Mem.free]
    split <;> exact hb
  | drop t =>
    have : s ≠ t := Ne.symm (of_decide_eq_true hs)
    simp [Step.op, Mem.drop, this, hb]
  | del t k =>
    have : s ≠ t := Ne.symm (of_decide_eq_true hs)
    simp only [Step.op, Mem.del, bind_apply, Mem.drop, Function.update_of_ne this]
    simp only [Mem.free]
    split <;> exact hb
  | renew t k =>
    have : s ≠ t := Ne.symm (of_decide_eq_true hs)
    simp only [Step.op, Mem.renew, bind_apply, Mem.new, Function.update_of_ne this]
    simp only [Mem.free]
    split <;> exact hb
  | newIfNull t k =>
    simp only [Step.op, Mem.newIfNull]
    split
    case isTrue hn =>
      have : s ≠ t := by rintro rfl; rw [hb] at hn; cases hn
      simp [Mem.new, this, hb]
    case isFalse => exact hb
  | touch t =>
    simp only [Step.op, Mem.touch]
    split <;> exact hb
  | setSparse b => exact hb

theorem Built.ptr {s : Slot} {β : Type} {m : Op β} (hm : Built (NotSet s) m) {h : Hp} {b : Nat} (hb : h.ptr s = some b) :
    (m h).2.ptr s = some b :=
  hm.keeps (I := fun h => h.ptr s = some b) (fun _ hs _ hi => NotSet.step hs hi) h hb

theorem Uses.touch (s : Slot) : Uses (touch s) s := by
  intro h b hb
  exact ⟨[.use b], by simp [Mem.touch, hb], by simp⟩

theorem Uses.left {A : Step → Bool} {β γ : Type} {m : Op β} {f : β → Op γ} {s : Slot} (hm : Uses m s) (hf : ∀ a, Built A (f a)) :
    Uses (m >>= f) s := by
  intro h b hb
  obtain ⟨u, hu, hi⟩ := hm h b hb
  obtain ⟨v, hv⟩ := (hf (m h).1).starts (m h).2
  exact ⟨u ++ v, by rw [bind_apply, hv, hu, List.append_assoc], by simp [hi]⟩

theorem Uses.right {β γ : Type} {m : Op β} {f : β → Op γ} {s : Slot} (hm : Built (NotSet s) m) (hf : ∀ a, Uses (f a) s) :
    Uses (m >>= f) s := by
  intro h b hb
  obtain ⟨v, hv⟩ := hm.starts h
  obtain ⟨u, hu, hi⟩ := hf (m h).1 (m h).2 b (hm.ptr hb)
  exact ⟨v ++ u, by rw [bind_apply, hu, hv, List.append_assoc], by simp [hi]⟩

theorem Uses.each {A : Step → Bool} {β : Type} {f : β → Op Unit} {l : List β} {s : Slot} {a : β} (ha : a ∈ l) (hu : Uses (f a) s)
    (hn : ∀ b, Built (NotSet s) (f b)) (hb : ∀ b, Built A (f b)) : Uses (each f l) s := by
  induction l with
  | nil => cases ha
  | cons c l ih =>
    rcases List.mem_cons.1 ha with rfl | h
    · exact .left hu fun _ => .each fun b _ => hb b
    · exact .right (hn c) fun _ => ih h

theorem Uses.arrs {l : List Arr} {a : Arr} (ha : a ∈ l) : Uses (Mem.each (fun a => Mem.touch (.arr a)) l) (.arr a) :=
  .each ha (.touch _) (fun _ => .touch rfl) (A := Any) fun _ => .touch rfl

theorem touchCsc_not (m : Csc) (s : Slot) : Built (NotSet s) (touchCsc m) := .each fun _ _ => .touch rfl

theorem Uses.csc (m : Csc) (p : Part) : Uses (touchCsc m) (.csc m p) :=
  .each (a := p) (by cases p <;> simp) (.touch _) (fun _ => .touch rfl) (A := Any) fun _ => .touch rfl

theorem arrs_not (l : List Arr) (s : Slot) : Built (NotSet s) (each (fun a => touch (.arr a)) l) := .each fun _ _ => .touch rfl

theorem Keep.notSet {s : Slot} (hs : s.isProb = true) {st : Step} (h : Keep st = true) : NotSet s st = true := by
  have hd : s.isData = true := by
    unfold Slot.isProb at hs
    split at hs
    · cases hs
    · cases hs
    · cases hs
    · cases hs
    · exact hs
  cases st with
  | new t k => exact decide_eq_true (by rintro rfl; simp [Keep, hd] at h)
  | drop t => exact decide_eq_true (by rintro rfl; simp [Keep, hd] at h)
  | del t k => exact decide_eq_true (by rintro rfl; simp [Keep, hs] at h)
  | renew t k => exact decide_eq_true (by rintro rfl; simp [Keep, hs] at h)
  | _ => rfl

theorem Built.notSet {β : Type} {m : Op β} (hm : Built Keep m) {s : Slot} (hs : s.isProb = true) : Built (NotSet s) m :=
  hm.mono fun _ h => Keep.notSet hs h

theorem Uses.ite {β : Type} {c : Prop} [Decidable c] {m k : Op β} {s : Slot} (hc : c) (hm : Uses m s) :
    Uses (if c then m else k) s := by
  rw [if_pos hc]; exact hm

theorem initRest_keep (sel : Sel) : Built Keep (initRest sel) := (initRest_built sel).runKeep

theorem arrs_keep (l : List Arr) : Built Keep (each (fun a => touch (.arr a)) l) := (touchArrs_built l).runKeep

theorem csc_keep (m : Csc) : Built Keep (touchCsc m) := touchCsc_built m fun _ => rfl

/-- `runSolver` after the first gradient -/
def solvePart (c : Run) : Op Unit := do
  firstSolve c
  ensureIterates
  when c.first do
    setQk
    loopActs c c.acts
    when c.success finish

/-- `runSolver` after the first QP -/
def loopPart (c : Run) : Op Unit := do
  setQk
  loopActs c c.acts
  when c.success finish

theorem loopPart_keep (c : Run) : Built Keep (loopPart c) :=
  .bind setQk_built.runKeep fun _ => .bind (loopActs_built c c.acts).useKeep fun _ => .when finish_built.runKeep

theorem solvePart_keep (c : Run) : Built Keep (solvePart c) :=
  .bind (firstSolve_keep c) fun _ => .bind ensureIterates_built.runKeep fun _ => .when (loopPart_keep c)

/-- used in the last part of a successful run -/
theorem finish_uses {s : Slot} (h : s = .arr .L ∨ s = .arr .R ∨ (∃ q, s = .csc .L q) ∨ ∃ q, s = .csc .R q) :
    Uses finish s := by
  have hs : s.isProb = true := by rcases h with rfl | rfl | ⟨q, rfl⟩ | ⟨q, rfl⟩ <;> rfl
  have k0 : ∀ l : Loc, Built Keep (new (.loc l) .arr) := fun _ => .new rfl
  have k1 : ∀ l : Loc, Built Keep (touch (.loc l)) := fun _ => .touch rfl
  have k2 : ∀ l : Loc, Built Keep (del (.loc l) .arr) := fun _ => .del rfl
  have kR := csc_keep .R
  have kL := csc_keep .L
  have rest : Built Keep (do
      del (.loc .tmp) .arr
      new (.loc .Lx) .arr
      new (.loc .Rx) .arr
      touch (.loc .Lx)
      touch (.loc .Rx)
      del (.loc .Lx) .arr
      del (.loc .Rx) .arr) := by built
  unfold finish
  refine .right ((k0 _).notSet hs) fun _ => .right ((k1 _).notSet hs) fun _ => ?_
  rcases h with rfl | rfl | ⟨q, rfl⟩ | ⟨q, rfl⟩
  · exact .left (.arrs (by simp)) fun _ => .bind kL fun _ => .bind kR fun _ => rest
  · exact .left (.arrs (by simp)) fun _ => .bind kL fun _ => .bind kR fun _ => rest
  · exact .right ((arrs_keep _).notSet hs) fun _ => .left (.csc _ _) fun _ => .bind kR fun _ => rest
  · exact .right ((arrs_keep _).notSet hs) fun _ => .right (kL.notSet hs) fun _ => .left (.csc _ _) fun _ => rest

theorem loopPart_uses {c : Run} (hc : c.success = true) {s : Slot} (hs : s.isProb = true) (hu : Uses finish s) :
    Uses (loopPart c) s :=
  .right (setQk_built.runKeep.notSet hs) fun _ => .right ((loopActs_built c c.acts).useKeep.notSet hs) fun _ => .ite hc hu

theorem solvePart_uses {c : Run} (hc : c.first = true) {s : Slot} (hs : s.isProb = true) (hu : Uses (loopPart c) s) :
    Uses (solvePart c) s :=
  .right ((firstSolve_keep c).notSet hs) fun _ => .right (ensureIterates_built.runKeep.notSet hs) fun _ => .ite hc hu

/-- data used by every run that gets as far as the first QP -/
theorem firstSolve_uses (c : Run) {a : Arr} (h : a = .lbA ∨ a = .ubA) : Uses (solvePart c) (.arr a) := by
  have k : ∀ x : Unit, Built Keep (do
      ensureIterates
      when c.first (loopPart c)) := fun _ => .bind ensureIterates_built.runKeep fun _ => .when (loopPart_keep c)
  refine .left (A := Keep) ?_ fun _ => k ()
  unfold firstSolve
  refine .left (A := Keep) (.arrs (by rcases h with rfl | rfl <;> simp)) fun _ => ?_
  cases c.sel
  case osqp =>
    refine .bind (osData_built _).runKeep fun _ => .bind ?_ fun _ => .touch rfl
    unfold osSetup
    have := (osTouch_built .main).runKeep
    simp only [each]
    built
  all_goals exact .each fun _ _ => .touch rfl

theorem afterInit_uses (c : Run) (hf : c.first = true) (hc : c.success = true) {s : Slot}
    (h : s ∈ [Slot.arr .g, .arr .lbA, .arr .ubA, .arr .L, .arr .R, .arr .C] ∨
      ∃ m q, s = .csc m q ∧ (m = .C ∨ m = .L ∨ m = .R)) : Uses (afterInit c) s := by
  have hs : s.isProb = true := by
    rcases h with h | ⟨m, q, rfl, rfl | rfl | rfl⟩
    · simp only [List.mem_cons, List.not_mem_nil, or_false] at h
      rcases h with rfl | rfl | rfl | rfl | rfl | rfl <;> rfl
    all_goals rfl
  have k1 := csc_keep .C
  have k2 := solvePart_keep c
  have fin : ∀ s : Slot, s.isProb = true → Uses finish s → Uses (do touchCsc .C; solvePart c) s := fun s hs hu =>
    .right ((csc_keep .C).notSet hs) fun _ => solvePart_uses hf hs (loopPart_uses hc hs hu)
  refine .right ((initRest_keep _).notSet hs) fun _ => ?_
  rcases h with h | ⟨m, q, rfl, rfl | rfl | rfl⟩
  · simp only [List.mem_cons, List.not_mem_nil, or_false] at h
    rcases h with rfl | rfl | rfl | rfl | rfl | rfl
    · exact .left (A := Keep) (.arrs (by simp)) fun _ => .bind k1 fun _ => k2
    · exact .right ((arrs_keep _).notSet hs) fun _ => .right (k1.notSet hs) fun _ => firstSolve_uses c (.inl rfl)
    · exact .right ((arrs_keep _).notSet hs) fun _ => .right (k1.notSet hs) fun _ => firstSolve_uses c (.inr rfl)
    · exact .right ((arrs_keep _).notSet hs) fun _ => fin _ hs (finish_uses (.inl rfl))
    · exact .right ((arrs_keep _).notSet hs) fun _ => fin _ hs (finish_uses (.inr (.inl rfl)))
    · exact .left (A := Keep) (.arrs (by simp)) fun _ => .bind k1 fun _ => k2
  · exact .right ((arrs_keep _).notSet hs) fun _ => .left (.csc _ _) fun _ => k2
  · exact .right ((arrs_keep _).notSet hs) fun _ => fin _ hs (finish_uses (.inr (.inr (.inl ⟨q, rfl⟩))))
  · exact .right ((arrs_keep _).notSet hs) fun _ => fin _ hs (finish_uses (.inr (.inr (.inr ⟨q, rfl⟩))))

theorem run_uses {c : Run} {h : Hp} (hr : (chooseSolver c.sel h).1 = true) {s : Slot} (hs : s.isProb = true)
    (hu : Uses (afterInit c) s) {b : Nat} (hb : h.ptr s = some b) : ∃ u, (run c h).2.tr = h.tr ++ u ∧ HEv.use b ∈ u := by
  rw [run_eq, hr]
  obtain ⟨v, hv⟩ := (chooseSolver_keep c.sel).starts h
  obtain ⟨u, h1, h2⟩ := hu _ b (((chooseSolver_keep c.sel).notSet hs).ptr hb)
  exact ⟨v ++ u, by simp only [if_true]; rw [h1, hv, List.append_assoc], by simp [h2]⟩

theorem setBoxes_keep : Built Keep setBoxes := setBoxes_built.runKeep

theorem denseChoice_uses {s : Slot} (h : s = .arr .Q ∨ s = .arr .A) :
    Uses (do setBoxes; touch (.arr .Q); touch (.arr .A); buildQpoases false; ret true) s := by
  have k : ∀ x : Unit, Built Keep (do buildQpoases false; ret true) := fun _ =>
    .bind (buildQpoases_built false).runKeep fun _ => .ret _
  rcases h with rfl | rfl
  · exact .right (setBoxes_keep.notSet rfl) fun _ => .left (A := Keep) (.touch _) fun _ => .bind (.touch rfl) fun _ => k ()
  · exact .right (setBoxes_keep.notSet rfl) fun _ => .right (.touch rfl) fun _ => .left (A := Keep) (.touch _) fun _ => k ()

theorem sparseChoice_uses {m : Csc} {q : Part} (h : m = .Q ∨ m = .A) {k : Op Unit} (hk : Built Keep k) :
    Uses (do touchCsc .Q; touchCsc .A; k; ret true) (.csc m q) := by
  have k' : ∀ x : Unit, Built Keep (do k; ret true) := fun _ => .bind hk fun _ => .ret _
  rcases h with rfl | rfl
  · exact .left (A := Keep) (.csc _ _) fun _ => .bind (csc_keep _) fun _ => k' ()
  · exact .right ((csc_keep _).notSet rfl) fun _ => .left (A := Keep) (.csc _ _) fun _ => k' ()

theorem chooseSolver_uses {sel : Sel} {h : Hp} (hr : (chooseSolver sel h).1 = true) {s : Slot} {b : Nat} (hb : h.ptr s = some b)
    (hs : (h.sparse = false ∧ (s = .arr .Q ∨ s = .arr .A)) ∨
      (h.sparse = true ∧ ∃ m q, s = .csc m q ∧ (m = .Q ∨ m = .A))) :
    ∃ u, (chooseSolver sel h).2.tr = h.tr ++ u ∧ HEv.use b ∈ u := by
  have e : chooseSolver sel h = (match sel with
      | .qpDense => if h.sparse then ret false
        else do setBoxes; touch (.arr .Q); touch (.arr .A); buildQpoases false; ret true
      | .qpSparse => if h.sparse then do setBoxes; touchCsc .Q; touchCsc .A; buildQpoases true; ret true
        else ret false
      | .osqp => chooseSolver .osqp
      | .other => ret false) h := by
    cases sel <;> rfl
  rw [e] at hr ⊢
  cases sel with
  | other => cases hr
  | qpDense =>
    dsimp only at hr ⊢
    rcases hs with ⟨hp, hs⟩ | ⟨hp, _⟩
    · simp only [hp, Bool.false_eq_true, if_false] at hr ⊢
      exact denseChoice_uses hs h b hb
    · simp only [hp, if_true] at hr
      cases hr
  | qpSparse =>
    dsimp only at hr ⊢
    rcases hs with ⟨hp, _⟩ | ⟨hp, m, q, rfl, hm⟩
    · simp only [hp, Bool.false_eq_true, if_false] at hr
      cases hr
    · simp only [hp, if_true] at hr ⊢
      refine Uses.right (setBoxes_keep.notSet ?_) (fun _ => sparseChoice_uses hm (buildQpoases_built true).runKeep) h b hb
      rcases hm with rfl | rfl <;> rfl
  | osqp =>
    dsimp only at hr ⊢
    have e2 : chooseSolver .osqp h = if (h.ptr (.arr .lb)).isSome || (h.ptr (.arr .ub)).isSome then (false, h)
        else (do
          shiftGuess
          if h.sparse then do
            let l ← isSet (.arr .lbTmp)
            let u ← isSet (.arr .ubTmp)
            if l || u then ret false
            else do
              touchCsc .Q
              touchCsc .A
              buildOsqp
              ret true
          else ret false : Op Bool) h := by
      simp only [chooseSolver, bind_apply, isSparse_fst, isSparse_snd, isSet_fst, isSet_snd]
      split <;> rfl
    rw [e2] at hr ⊢
    split at hr
    · cases hr
    case isFalse hn =>
      rw [if_neg hn]
      rcases hs with ⟨hp, _⟩ | ⟨hp, m, q, rfl, hm⟩
      · simp only [hp, Bool.false_eq_true, if_false, bind_apply] at hr
        cases hr
      · have hP : (Slot.csc m q).isProb = true := by rcases hm with rfl | rfl <;> rfl
        obtain ⟨v, hv⟩ := shiftGuess_built.starts h
        have hb' := (shiftGuess_built.runKeep.notSet hP).ptr hb
        simp only [hp, if_true, bind_apply, isSet_fst, isSet_snd] at hr ⊢
        split at hr
        · cases hr
        case isFalse hn2 =>
          rw [if_neg hn2]
          obtain ⟨u, h1, h2⟩ := sparseChoice_uses (q := q) hm buildOsqp_keep _ b hb'
          exact ⟨v ++ u, by rw [h1, hv, List.append_assoc], by simp [h2]⟩

end LCQ.Mem
