import Verif.Lemmas.MemoryLife

/-!
# Which pointers hold the blocks allocated since some moment
-/

namespace LCQ.Mem

/-- every block from `n0` on was released or is held by a pointer in `D`; pointers not in `D` hold
older blocks -/
structure NL (n0 : Nat) (D : List Slot) (h : Hp) : Prop where
  held : ∀ b, n0 ≤ b → b < h.next → Released h.tr b ∨ ∃ s ∈ D, h.ptr s = some b
  old : ∀ s, s ∉ D → ∀ b, h.ptr s = some b → b < n0
  le : n0 ≤ h.next

theorem NL.weaken {n0 : Nat} {D D' : List Slot} {h : Hp} (hn : NL n0 D h) (hd : D ⊆ D') :
    NL n0 D' h := by
  refine ⟨fun b h1 h2 => ?_, fun s hs => hn.old s fun h1 => hs (hd h1), hn.le⟩
  rcases hn.held b h1 h2 with h3 | ⟨s, h3, h4⟩
  · exact .inl h3
  · exact .inr ⟨s, hd h3, h4⟩

/-- effect of a program on the list -/
def NB {β : Type} (n0 : Nat) (D : List Slot) (m : Op β) (D' : List Slot) : Prop :=
  ∀ h, NL n0 D h → NL n0 D' (m h).2

/-- the same if the result is `true` -/
def NS (n0 : Nat) (D : List Slot) (m : Op Bool) (D' : List Slot) : Prop :=
  ∀ h, NL n0 D h → (m h).1 = true → NL n0 D' (m h).2

/-- the same for both results -/
def NR (n0 : Nat) (D : List Slot) (m : Op Bool) (D1 D2 : List Slot) : Prop :=
  ∀ h, NL n0 D h → NL n0 (if (m h).1 then D1 else D2) (m h).2

variable {n0 : Nat} {D D' D1 D2 : List Slot}

theorem NL.new {h : Hp} (hn : NL n0 D h) {s : Slot} (hs : s ∉ D ∨ h.ptr s = none) (k : Kind) :
    NL n0 (s :: D) (Mem.new s k h).2 := by
  refine ⟨fun b h1 h2 => ?_, fun t ht b hb => ?_, Nat.le_succ_of_le hn.le⟩
  · by_cases e : b = h.next
    · exact .inr ⟨s, by simp, by simp [Mem.new, e]⟩
    · have h2 : b < h.next + 1 := h2
      rcases hn.held b h1 (by omega) with ⟨k', h3⟩ | ⟨t, h3, h4⟩
      · exact .inl ⟨k', by simp [Mem.new, h3]⟩
      · refine .inr ⟨t, by simp [h3], ?_⟩
        have : t ≠ s := by
          rintro rfl
          rcases hs with hs | hs
          · exact hs h3
          · rw [hs] at h4
            simp at h4
        simpa [Mem.new, this] using h4
  · simp at ht
    simp [Mem.new, ht.1] at hb
    exact hn.old t ht.2 b hb

theorem NL.free {h : Hp} (hn : NL n0 D h) (s : Slot) (k : Kind) : NL n0 D (Mem.free s k h).2 := by
  have hs : Starts h.tr (Mem.free s k h).2 := (Built.free (A := Any) rfl).starts h
  have hx : (Mem.free s k h).2.next = h.next := by
    unfold Mem.free
    cases h.ptr s <;> rfl
  refine ⟨fun b h1 h2 => ?_, fun t ht b hb => ?_, by rw [hx]; exact hn.le⟩
  · rw [hx] at h2
    rw [free_ptr]
    rcases hn.held b h1 h2 with h3 | h3
    · exact .inl (h3.mono hs)
    · exact .inr h3
  · rw [free_ptr] at hb
    exact hn.old t ht b hb

theorem NL.drop {h : Hp} (hn : NL n0 D h) {s : Slot}
    (hs : ∀ b, n0 ≤ b → h.ptr s = some b → Released h.tr b) :
    NL n0 (D.filter (· != s)) (Mem.drop s h).2 := by
  refine ⟨fun b h1 h2 => ?_, fun t ht b hb => ?_, hn.le⟩
  · rcases hn.held b h1 h2 with h3 | ⟨t, h3, h4⟩
    · exact .inl h3
    · by_cases e : t = s
      · subst e
        exact .inl (hs b h1 h4)
      · exact .inr ⟨t, by simp [h3, e], by simpa [Mem.drop, e] using h4⟩
  · by_cases e : t = s
    · subst e
      simp [Mem.drop] at hb
    · simp [Mem.drop, e] at hb
      refine hn.old t (fun h1 => ht ?_) b hb
      simp [h1, e]

theorem NL.del {h : Hp} (hn : NL n0 D h) (s : Slot) (k : Kind) :
    NL n0 (D.filter (· != s)) (del s k h).2 :=
  (hn.free s k).drop fun b _ hb => by
    rw [free_ptr] at hb
    exact free_released hb

/-! ## rules -/

theorem NB.weaken {β : Type} {m : Op β} (h1 : NB n0 D m D1) (h2 : D1 ⊆ D') : NB n0 D m D' :=
  fun h hn => (h1 h hn).weaken h2

theorem NS.weaken {m : Op Bool} (h1 : NS n0 D m D1) (h2 : D1 ⊆ D') : NS n0 D m D' :=
  fun h hn hb => (h1 h hn hb).weaken h2

theorem NB.ret {β : Type} (b : β) : NB n0 D (ret b) D := fun _ hn => hn

theorem NB.bind {β γ : Type} {m : Op β} {f : β → Op γ} (h1 : NB n0 D m D1)
    (h2 : ∀ a, NB n0 D1 (f a) D') : NB n0 D (m >>= f) D' := by
  intro h hn
  rw [bind_apply]
  exact h2 _ _ (h1 h hn)

theorem NB.new {s : Slot} {k : Kind} (hs : s ∉ D) : NB n0 D (new s k) (s :: D) :=
  fun _ hn => hn.new (.inl hs) k

theorem NB.newA {a : Arr} (hs : Slot.arr a ∉ D) : NB n0 D (newA a) (.arr a :: D) := NB.new hs

theorem NB.free {s : Slot} {k : Kind} : NB n0 D (free s k) D := fun _ hn => hn.free s k

theorem NB.del {s : Slot} {k : Kind} : NB n0 D (del s k) (D.filter (· != s)) :=
  fun _ hn => hn.del s k

theorem NB.delA {a : Arr} : NB n0 D (delA a) (D.filter (· != .arr a)) := NB.del

theorem NB.drop {s : Slot} (hs : s ∉ D) : NB n0 D (Mem.drop s) D := fun _ hn =>
  (hn.drop fun b h1 h2 => absurd (hn.old s hs b h2) (by omega)).weaken
    fun _ ht => (List.mem_filter.1 ht).1

theorem NB.renew {s : Slot} {k : Kind} : NB n0 D (renew s k) (s :: D) := by
  intro h hn
  have h1 := hn.free s k
  refine ⟨fun b h2 h3 => ?_, fun t ht b hb => ?_, Nat.le_succ_of_le h1.le⟩
  · by_cases e : b = (Mem.free s k h).2.next
    · exact .inr ⟨s, by simp, by simp [Mem.renew, Bind.bind, Mem.bind, Mem.new, e]⟩
    · have h3 : b < (Mem.free s k h).2.next + 1 := h3
      have mono : ∀ b, Released (Mem.free s k h).2.tr b → Released (Mem.renew s k h).2.tr b := by
        rintro b ⟨k', hk⟩
        exact ⟨k', by simp [Mem.renew, Bind.bind, Mem.bind, Mem.new, hk]⟩
      rcases h1.held b h2 (by omega) with h4 | ⟨t, h4, h5⟩
      · exact .inl (mono b h4)
      · by_cases e2 : t = s
        · subst e2
          refine .inl (mono b ?_)
          rw [free_ptr] at h5
          exact free_released h5
        · exact .inr ⟨t, by simp [h4], by
            simpa [Mem.renew, Bind.bind, Mem.bind, Mem.new, e2] using h5⟩
  · simp at ht
    simp [Mem.renew, Bind.bind, Mem.bind, Mem.new, ht.1] at hb
    exact h1.old t ht.2 b hb

theorem NB.newIfNull {s : Slot} {k : Kind} (hs : s ∈ D) : NB n0 D (newIfNull s k) D := by
  intro h hn
  unfold Mem.newIfNull
  split
  · rename_i e
    exact (hn.new (.inr e) k).weaken fun t ht => by
      rcases List.mem_cons.1 ht with rfl | h1
      · exact hs
      · exact h1
  · exact hn

theorem NB.newIfNull' {s : Slot} {k : Kind} : NB n0 D (Mem.newIfNull s k) (s :: D) := by
  intro h hn
  unfold Mem.newIfNull
  split
  · rename_i e
    exact hn.new (.inr e) k
  · exact hn.weaken fun t ht => by simp [ht]

/-- only uses, or the mode is set -/
def Look : Step → Bool
  | .touch _ => true
  | .setSparse _ => true
  | _ => false

theorem NB.look {β : Type} {m : Op β} (hm : Built Look m) : NB n0 D m D := by
  intro h hn
  refine hm.keeps (I := NL n0 D) (fun st hs h hn => ?_) h hn
  cases st with
  | touch s =>
    show NL n0 D (Mem.touch s h).2
    unfold Mem.touch
    cases h.ptr s with
    | none => exact hn
    | some b =>
      refine ⟨fun c h1 h2 => ?_, hn.old, hn.le⟩
      rcases hn.held c h1 h2 with ⟨k, h3⟩ | h3
      · exact .inl ⟨k, by simp [h3]⟩
      · exact .inr h3
  | setSparse b => exact ⟨hn.held, hn.old, hn.le⟩
  | _ => simp [Look] at hs

theorem NB.touch {s : Slot} : NB n0 D (touch s) D := NB.look (.touch rfl)

theorem NB.setSparse {b : Bool} : NB n0 D (setSparse b) D := NB.look (.setSparse rfl)

theorem NB.touchCsc {m : Csc} : NB n0 D (touchCsc m) D := NB.look (touchCsc_built m fun _ => rfl)

theorem NB.when {b : Bool} {m : Op Unit} (hm : NB n0 D m D') (hd : D ⊆ D') :
    NB n0 D (when b m) D' := by
  intro h hn
  unfold Mem.when
  split
  · exact hm h hn
  · exact hn.weaken hd

theorem NB.whenFalse {m : Op Unit} : NB n0 D (Mem.when false m) D := fun _ hn => hn

theorem NB.newIf {b : Bool} {a : Arr} (hs : Slot.arr a ∉ D) : NB n0 D (newIf b a) (.arr a :: D) :=
  .when (.newA hs) (by simp)

theorem NB.isSet {γ : Type} {s : Slot} {f : Bool → Op γ} (hf : ∀ b, NB n0 D (f b) D') :
    NB n0 D (isSet s >>= f) D' := by
  intro h hn
  rw [bind_apply, isSet_snd]
  exact hf _ h hn

theorem NB.isSetNone {γ : Type} {s : Slot} {f : Bool → Op γ} (hs : s ∉ D) (hf : NB 0 D (f false) D') :
    NB 0 D (Mem.isSet s >>= f) D' := by
  intro h hn
  rw [bind_apply, isSet_snd, isSet_fst]
  have : h.ptr s = none := by
    cases e : h.ptr s with
    | none => rfl
    | some b => exact absurd (hn.old s hs b e) (by omega)
  rw [this]
  exact hf h hn

theorem NS.retTrue : NS n0 D (ret true) D := fun _ hn _ => hn

theorem NS.retFalse : NS n0 D (Mem.ret false) D' := fun _ _ hb => by simp [Mem.ret] at hb

theorem NS.retVal {b : Bool} : NS n0 D (Mem.ret b) D := fun _ hn _ => hn

theorem NS.bind {β : Type} {m : Op β} {f : β → Op Bool} (h1 : NB n0 D m D1)
    (h2 : ∀ a, NS n0 D1 (f a) D') : NS n0 D (m >>= f) D' := by
  intro h hn
  rw [bind_apply]
  exact h2 _ _ (h1 h hn)

theorem NS.guard {c : Bool} {m : Op Bool} (hm : NS n0 D m D') :
    NS n0 D (if c then m else Mem.ret false) D' := by
  split
  · exact hm
  · exact .retFalse

theorem NS.andIf {m k : Op Bool} (hm : NS n0 D m D1) (hk : NS n0 D1 k D') :
    NS n0 D (andIf m k) D' := by
  intro h hn hb
  unfold Mem.andIf at hb ⊢
  rw [bind_apply] at hb ⊢
  cases e : (m h).1 with
  | false =>
    rw [e] at hb
    simp [Mem.ret] at hb
  | true =>
    rw [e] at hb
    exact hk _ (hm h hn e) (by simpa using hb)

/-- the failing result of the first part makes the whole fail -/
theorem NS.bindB {m : Op Bool} {f : Bool → Op Bool} (hm : NS n0 D m D1) (hf : NS n0 D1 (f true) D')
    (h0 : ∀ h, (f false h).1 = false) : NS n0 D (m >>= f) D' := by
  intro h hn hb
  rw [bind_apply] at hb ⊢
  cases e : (m h).1 with
  | false =>
    rw [e, h0] at hb
    simp at hb
  | true =>
    rw [e] at hb
    exact hf _ (hm h hn e) hb

theorem NS.guardTrue {m k : Op Bool} (hm : NS n0 D m D') :
    NS n0 D (if true = true then m else k) D' := hm

/-- inclusion of lists, computed -/
def sub (D D' : List Slot) : Bool := D.all fun s => D'.contains s

theorem sub_iff {D D' : List Slot} (h : sub D D' = true) : D ⊆ D' := by
  intro s hs
  simpa using List.all_eq_true.1 h s hs

theorem NS.weaken' {m : Op Bool} (h1 : NS n0 D m D1) (h2 : sub D1 D' = true) : NS n0 D m D' :=
  h1.weaken (sub_iff h2)

theorem NB.weaken' {β : Type} {m : Op β} (h1 : NB n0 D m D1) (h2 : sub D1 D' = true) :
    NB n0 D m D' := h1.weaken (sub_iff h2)

theorem NB.when' {b : Bool} {m : Op Unit} (hm : NB n0 D m D') (hd : sub D D' = true) :
    NB n0 D (Mem.when b m) D' := .when hm (sub_iff hd)

theorem NS.setGuess {c : Load} (h1 : Slot.arr .xk ∉ D) (h2 : Slot.arr .yk ∉ D) :
    NS n0 D (setInitialGuess c) (.arr .yk :: .arr .xk :: D) := by
  unfold setInitialGuess
  have h3 : Slot.arr .yk ∉ Slot.arr .xk :: D := by simp [h2]
  refine .bind (.newA h1) fun _ => .bind .touch fun _ => ?_
  split
  · exact .bind (.newA h3) fun _ => .bind .touch fun _ => .retTrue
  · exact .weaken (.bind (.drop h3) fun _ => .retTrue) (by simp)

theorem NS.guardElse {c : Bool} {m n : Op Bool} (h0 : ∀ h, (n h).1 = false) (hm : NS n0 D m D') :
    NS n0 D (if c then m else n) D' := by
  split
  · exact hm
  · intro h _ hb
    rw [h0] at hb
    simp at hb

theorem NS.readLoc {given ok : Bool} {l : Loc} (hs : Slot.loc l ∉ D) :
    NS n0 D (readLoc given ok l) (.loc l :: D) := by
  unfold Mem.readLoc
  split
  · exact .bind (.new hs) fun _ => .bind .touch fun _ => .guardElse (fun _ => rfl) .retTrue
  · exact NS.retTrue.weaken (by simp)

theorem NS.readLocFalse {ok : Bool} {l : Loc} : NS n0 D (Mem.readLoc false ok l) D := NS.retTrue

theorem NB.whenTrue {m : Op Unit} (hm : NB n0 D m D') : NB n0 D (Mem.when true m) D' := hm

/-- follow the code -/
macro "held" : tactic => `(tactic| repeat' (first
  | with_reducible exact NB.ret _
  | with_reducible exact NS.retTrue
  | with_reducible exact NS.retFalse
  | with_reducible exact NS.retVal
  | with_reducible exact NB.touch
  | with_reducible exact NB.setSparse
  | with_reducible exact NB.touchCsc
  | with_reducible exact NB.free
  | with_reducible exact NB.del
  | with_reducible exact NB.delA
  | with_reducible exact NB.renew
  | with_reducible exact NB.whenFalse
  | with_reducible exact NB.newIf (by decide +kernel)
  | with_reducible exact NB.newA (by decide +kernel)
  | with_reducible exact NB.new (by decide +kernel)
  | with_reducible exact NB.drop (by decide +kernel)
  | with_reducible apply NS.andIf
  | with_reducible apply NS.guardTrue
  | with_reducible apply NS.guard
  | ((with_reducible apply NS.guardElse); (intro _; rfl))
  | with_reducible exact NS.setGuess (by decide +kernel) (by decide +kernel)
  | with_reducible exact NS.readLocFalse
  | with_reducible exact NS.readLoc (by decide +kernel)
  | with_reducible apply NB.isSet
  | with_reducible apply NB.whenTrue
  | with_reducible apply NB.when'
  | with_reducible apply NB.bind
  | with_reducible apply NS.bindB
  | with_reducible apply NS.bind
  | with_reducible intro _
  | decide +kernel
  | (intro _; rfl)))

/-! ## loads -/

/-- members that a dense load sets -/
def denseSlots : List Slot := [.arr .Q, .arr .g, .arr .lbTmp, .arr .ubTmp, .arr .A, .arr .lbA, .arr .ubA,
  .arr .L, .arr .R, .arr .C, .arr .lbL, .arr .ubL, .arr .lbR, .arr .ubR, .arr .xk, .arr .yk]

/-- members that a sparse load sets -/
def sparseSlots : List Slot := [.arr .g, .arr .lbTmp, .arr .ubTmp, .arr .lbA, .arr .ubA, .arr .lbL,
  .arr .ubL, .arr .lbR, .arr .ubR, .arr .xk, .arr .yk] ++
  [Csc.Q, .A, .L, .R, .C].flatMap fun m => [Part.s, .i, .x, .p].map fun q => .csc m q

theorem loadDense_ns (n0 : Nat) (c : Load) : NS n0 [] (loadDense c) denseSlots := by
  simp only [loadDense, setQ, setG, setTmp, setConstraints, newBounds, setCompBounds, each]
  apply NS.weaken'
  held

theorem loadSparse_ns (n0 : Nat) (c : Load) : NS n0 [] (loadSparse c) sparseSlots := by
  simp only [loadSparse, setQs, setG, setTmp, setConstraintsSparse, newCsc, newBounds, setCompBounds,
    each]
  apply NS.weaken'
  held

theorem loadFiles_ns (n0 : Nat) (c : FileLoad) : NS n0 [] (loadFiles c) denseSlots := by
  simp only [loadFiles, loadFilesBody, fileLocs, readAll, tmpFrom, setQ, setG, setConstraints,
    newBounds, setCompBounds, each, FileLoad.given, if_true]
  generalize c.lb = lb
  generalize c.ub = ub
  cases lb <;> cases ub
  all_goals
    apply NS.weaken'
    held
  all_goals rfl

end LCQ.Mem
