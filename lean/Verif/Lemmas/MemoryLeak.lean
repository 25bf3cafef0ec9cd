import Verif.Lemmas.MemoryLast

/-!
# Which pointers a load overwrites, and which blocks are lost thereby
-/

namespace LCQ.Mem

/-- the pointers in `E` hold blocks from `n0` on -/
structure Must (n0 : Nat) (E : List Slot) (h : Hp) : Prop where
  le : n0 ≤ h.next
  set : ∀ s ∈ E, ∃ b, n0 ≤ b ∧ h.ptr s = some b

/-- effect of a program on the list -/
def MB {β : Type} (n0 : Nat) (E : List Slot) (m : Op β) (E' : List Slot) : Prop :=
  ∀ h, Must n0 E h → Must n0 E' (m h).2

/-- the same if the result is `true` -/
def MS (n0 : Nat) (E : List Slot) (m : Op Bool) (E' : List Slot) : Prop :=
  ∀ h, Must n0 E h → (m h).1 = true → Must n0 E' (m h).2

variable {n0 : Nat} {E E' E1 : List Slot}

theorem MB.new {s : Slot} {k : Kind} : MB n0 E (new s k) (s :: E) := by
  intro h hm
  refine ⟨Nat.le_succ_of_le hm.le, fun t ht => ?_⟩
  by_cases e : t = s
  · exact ⟨h.next, hm.le, by simp [Mem.new, e]⟩
  · obtain ⟨b, h1, h2⟩ := hm.set t (by simpa [e] using ht)
    exact ⟨b, h1, by simp [Mem.new, e, h2]⟩

theorem MB.newA {a : Arr} : MB n0 E (newA a) (.arr a :: E) := MB.new

theorem Must.sub {h : Hp} (hm : Must n0 E h) (hs : sub E' E = true) : Must n0 E' h :=
  ⟨hm.le, fun s h1 => hm.set s (sub_iff hs h1)⟩

theorem MB.weaken {β : Type} {m : Op β} (h1 : MB n0 E m E1) (h2 : sub E' E1 = true) :
    MB n0 E m E' := fun h hm => (h1 h hm).sub h2

theorem MS.weaken {m : Op Bool} (h1 : MS n0 E m E1) (h2 : sub E' E1 = true) : MS n0 E m E' :=
  fun h hm hb => (h1 h hm hb).sub h2

theorem MB.ret {β : Type} (b : β) : MB n0 E (ret b) E := fun _ h => h

/-- no pointer in `E` is reset -/
def Hold (E : List Slot) : Step → Bool
  | .drop s => !E.contains s
  | .del s _ => !E.contains s
  | _ => true

theorem MB.keep {β : Type} {m : Op β} (hb : Built (Hold E) m) : MB n0 E m E := by
  intro h hm
  refine hb.keeps (I := Must n0 E) (fun st hs h hm => ?_) h hm
  refine ⟨hm.le.trans (step_next st h), fun s hE => ?_⟩
  have same : st.sets s = false → ∃ b, n0 ≤ b ∧ (st.op h).2.ptr s = some b := fun h1 => by
    rw [Step.ptr_of h1]
    exact hm.set s hE
  have other : ∀ t, E.contains t = false → (t == s) = false := by
    intro t ht
    rw [beq_eq_false_iff_ne]
    rintro rfl
    simp [hE] at ht
  cases st with
  | new t k => exact (MB.new (E := E) h hm).set s (by simp [hE])
  | free t k => exact same rfl
  | drop t => exact same (other t (by simpa [Hold] using hs))
  | del t k => exact same (other t (by simpa [Hold] using hs))
  | renew t k =>
    have h1 : Must n0 E (Mem.free t k h).2 := by
      have hx : (Mem.free t k h).2.next = h.next := by
        unfold Mem.free
        cases h.ptr t <;> rfl
      refine ⟨by rw [hx]; exact hm.le, ?_⟩
      rw [free_ptr]
      exact hm.set
    exact (MB.new (E := E) (k := k) _ h1).set s (by simp [hE])
  | newIfNull t k =>
    show ∃ b, n0 ≤ b ∧ (Mem.newIfNull t k h).2.ptr s = some b
    unfold Mem.newIfNull
    split
    · exact (MB.new (E := E) h hm).set s (by simp [hE])
    · exact hm.set s hE
  | touch t => exact same rfl
  | setSparse b => exact same rfl

theorem MB.bind {β γ : Type} {m : Op β} {f : β → Op γ} (h1 : MB n0 E m E1)
    (h2 : ∀ a, MB n0 E1 (f a) E') : MB n0 E (m >>= f) E' := by
  intro h hn
  rw [bind_apply]
  exact h2 _ _ (h1 h hn)

theorem MS.retTrue : MS n0 E (Mem.ret true) E := fun _ hn _ => hn

theorem MS.retFalse : MS n0 E (Mem.ret false) E' := fun _ _ hb => by simp [Mem.ret] at hb

theorem MS.retVal {b : Bool} : MS n0 E (Mem.ret b) E := fun _ hn _ => hn

theorem MS.bind {β : Type} {m : Op β} {f : β → Op Bool} (h1 : MB n0 E m E1)
    (h2 : ∀ a, MS n0 E1 (f a) E') : MS n0 E (m >>= f) E' := by
  intro h hn
  rw [bind_apply]
  exact h2 _ _ (h1 h hn)

theorem MS.guardElse {c : Bool} {m n : Op Bool} (h0 : ∀ h, (n h).1 = false) (hm : MS n0 E m E') :
    MS n0 E (if c then m else n) E' := by
  split
  · exact hm
  · intro h _ hb
    rw [h0] at hb
    simp at hb

theorem MS.andIf {m k : Op Bool} (hm : MS n0 E m E1) (hk : MS n0 E1 k E') :
    MS n0 E (andIf m k) E' := by
  intro h hn hb
  unfold Mem.andIf at hb ⊢
  rw [bind_apply] at hb ⊢
  cases e : (m h).1 with
  | false =>
    rw [e] at hb
    simp [Mem.ret] at hb
  | true =>
    rw [e] at hb
    exact hk _ (hm h hn e) (by simpa using hb)

theorem MS.bindB {m : Op Bool} {f : Bool → Op Bool} (hm : MS n0 E m E1) (hf : MS n0 E1 (f true) E')
    (h0 : ∀ h, (f false h).1 = false) : MS n0 E (m >>= f) E' := by
  intro h hn hb
  rw [bind_apply] at hb ⊢
  cases e : (m h).1 with
  | false =>
    rw [e, h0] at hb
    simp at hb
  | true =>
    rw [e] at hb
    exact hf _ (hm h hn e) hb

theorem MS.keep {m : Op Bool} (hb : Built (Hold E) m) : MS n0 E m E := fun h hm _ => MB.keep hb h hm

theorem MS.setGuess {c : Load} (hy : E.contains (.arr .yk) = false) :
    MS n0 E (setInitialGuess c) (.arr .xk :: E) := by
  unfold setInitialGuess
  refine .bind .newA fun _ => .keep ?_
  refine .bind (.touch rfl) fun _ => .ite ?_ ?_
  · exact .bind (.newA rfl) fun _ => .bind (.touch rfl) fun _ => .ret _
  · refine .bind (.drop ?_) fun _ => .ret _
    simp only [Hold, List.contains_cons, hy]
    decide

theorem MS.readAll {c : FileLoad} (hE : ∀ l, E.contains (.loc l) = false) (l : List Loc) :
    MS n0 E (readAll c l) E := by
  refine .keep ?_
  induction l with
  | nil => exact .ret _
  | cons a l ih =>
    simp only [Mem.readAll, Mem.readLoc]
    have h1 : Built (Hold E) (del (.loc a) .arr) := .del (by simpa [Hold] using hE a)
    built

theorem MB.touch {s : Slot} : MB n0 E (Mem.touch s) E := .keep (.touch rfl)
theorem MB.newIf {b : Bool} {a : Arr} : MB n0 E (Mem.newIf b a) E := .keep (.newIf rfl)
theorem MB.setSparse {b : Bool} : MB n0 E (Mem.setSparse b) E := .keep (.setSparse rfl)
theorem MB.touchCsc {m : Csc} : MB n0 E (Mem.touchCsc m) E := .keep (touchCsc_built _ fun _ => rfl)
theorem MB.del {s : Slot} {k : Kind} (hs : E.contains s = false) : MB n0 E (Mem.del s k) E :=
  .keep (.del (by simpa [Hold] using hs))
theorem MB.drop {s : Slot} (hs : E.contains s = false) : MB n0 E (Mem.drop s) E :=
  .keep (.drop (by simpa [Hold] using hs))
theorem MB.tmpFrom {b : Bool} {a : Arr} {l : Loc} (hs : E.contains (.loc l) = false) :
    MB n0 E (Mem.tmpFrom b a l) E :=
  .keep (.when (.bind (.newA rfl) fun _ => .bind (.touch rfl) fun _ =>
    .del (by simpa [Hold] using hs)))

/-- members that every dense load overwrites -/
def denseMust : List Slot := [.arr .Q, .arr .g, .arr .A, .arr .lbA, .arr .ubA, .arr .L, .arr .R, .arr .C,
  .arr .xk]

/-- members that every sparse load overwrites -/
def sparseMust : List Slot := [.arr .g, .arr .lbA, .arr .ubA, .arr .xk] ++
  [Csc.Q, .A, .L, .R, .C].flatMap fun m => [Part.s, .i, .x, .p].map fun q => .csc m q

/-- follow the code -/
macro "must" : tactic => `(tactic| repeat' (first
  | with_reducible exact MS.retTrue
  | with_reducible exact MS.retFalse
  | with_reducible exact MS.retVal
  | with_reducible exact MB.ret _
  | with_reducible exact MB.newA
  | with_reducible exact MB.new
  | with_reducible exact MB.touch
  | with_reducible exact MB.newIf
  | with_reducible exact MB.setSparse
  | with_reducible exact MB.touchCsc
  | with_reducible exact MB.del (by decide +kernel)
  | with_reducible exact MB.drop (by decide +kernel)
  | with_reducible exact MB.tmpFrom (by decide +kernel)
  | with_reducible exact MS.setGuess (by decide +kernel)
  | with_reducible apply MS.andIf
  | ((with_reducible apply MS.guardElse); (intro _; rfl))
  | with_reducible apply MB.bind
  | with_reducible apply MS.bindB
  | with_reducible apply MS.bind
  | with_reducible intro _
  | decide +kernel))

theorem loadDense_ms (n0 : Nat) (c : Load) : MS n0 [] (loadDense c) denseMust := by
  simp only [loadDense, setQ, setG, setTmp, setConstraints, newBounds, setCompBounds, each]
  apply MS.weaken
  must

theorem loadSparse_ms (n0 : Nat) (c : Load) : MS n0 [] (loadSparse c) sparseMust := by
  simp only [loadSparse, setQs, setG, setTmp, setConstraintsSparse, newCsc, newBounds, setCompBounds,
    each]
  apply MS.weaken
  must

theorem loadFiles_ms (n0 : Nat) (c : FileLoad) : MS n0 [] (loadFiles c) denseMust := by
  have h0 : MS n0 [] (readAll c fileLocs) [] := .readAll (fun _ => rfl) _
  simp only [loadFiles, loadFilesBody, setQ, setG, setConstraints, newBounds, setCompBounds, each,
    if_true]
  rw [show fileLocs = [.Q, .g, .L, .R, .lbL, .ubL, .lbR, .ubR, .A, .lbA, .ubA, .lb, .ub, .x0, .y0] from rfl]
    at h0 ⊢
  simp only [each]
  apply MS.weaken
  · apply MS.bindB
    · apply MS.andIf h0
      must
      all_goals rfl
    · must
    · intro _
      rfl
  · decide +kernel

/-! ## lost blocks -/

/-- alive, and only `s` refers to it -/
structure Only (s : Slot) (b : Nat) (h : Hp) : Prop where
  alive : Leaked h.tr b
  lt : b < h.next
  only : ∀ t, h.ptr t = some b → t = s

theorem Only.free {s t : Slot} {b : Nat} {k : Kind} {h : Hp} (ho : Only s b h) (ht : t ≠ s) :
    Only s b (Mem.free t k h).2 := by
  unfold Mem.free
  cases e : h.ptr t with
  | none => exact ho
  | some c =>
    obtain ⟨k', hk⟩ := ho.alive
    refine ⟨⟨k', hk.snoc fun k'' h1 => ?_⟩, ho.lt, ho.only⟩
    simp only [HEv.free.injEq] at h1
    exact ht (ho.only t (by rw [e, h1.1]))

theorem Only.new {s : Slot} {b : Nat} {h : Hp} (ho : Only s b h) (t : Slot) (k : Kind) :
    Only s b (Mem.new t k h).2 := by
  obtain ⟨k', hk⟩ := ho.alive
  refine ⟨⟨k', hk.snoc (by simp)⟩, Nat.lt_succ_of_lt ho.lt, fun u hu => ?_⟩
  by_cases e : u = t
  · subst e
    simp [Mem.new] at hu
    have := ho.lt
    omega
  · simp [Mem.new, e] at hu
    exact ho.only u hu

theorem Only.drop {s : Slot} {b : Nat} {h : Hp} (ho : Only s b h) (t : Slot) :
    Only s b (Mem.drop t h).2 := by
  refine ⟨ho.alive, ho.lt, fun u hu => ?_⟩
  by_cases e : u = t
  · subst e
    simp [Mem.drop] at hu
  · simp [Mem.drop, e] at hu
    exact ho.only u hu

theorem Only.load {β : Type} {m : Op β} (hm : Built LoadSafe m) {s : Slot} (hs : s.isLoc = false)
    {b : Nat} {h : Hp} (ho : Only s b h) : Only s b (m h).2 := by
  refine hm.keeps (I := Only s b) (fun st hst h ho => ?_) h ho
  have hf : FreeLoc st = true := (Bool.and_eq_true_iff.1 hst).2
  have loc : ∀ t : Slot, t.isLoc = true → t ≠ s := by
    rintro t ht rfl
    rw [hs] at ht
    simp at ht
  cases st with
  | new t k => exact ho.new t k
  | free t k => simp [FreeLoc] at hf
  | drop t => exact ho.drop t
  | del t k => exact (ho.free (loc t hf)).drop t
  | renew t k => exact (ho.free (loc t hf)).new t k
  | newIfNull t k =>
    show Only s b (Mem.newIfNull t k h).2
    unfold Mem.newIfNull
    split
    · exact ho.new t k
    · exact ho
  | touch t =>
    show Only s b (Mem.touch t h).2
    unfold Mem.touch
    cases h.ptr t
    · exact ho
    · obtain ⟨k', hk⟩ := ho.alive
      exact ⟨⟨k', hk.snoc (by simp)⟩, ho.lt, ho.only⟩
  | setSparse c => exact ⟨ho.alive, ho.lt, ho.only⟩

/-- a block held by an overwritten pointer is lost -/
theorem load_lost {m : Op Bool} (hb : Built LoadSafe m) {E : List Slot}
    (hE : ∀ n0, MS n0 [] m E) (hl : ∀ s ∈ E, s.isLoc = false) {h : Hp} (hi : Inv All h)
    (hr : (m h).1 = true) {s : Slot} (hs : s ∈ E) {b : Nat} (hp : h.ptr s = some b) :
    Lost b (m h).2 := by
  have ho : Only s b h := ⟨⟨_, hi.good s b trivial hp⟩, hi.known s b hp, fun t ht => hi.inj t s b ht hp⟩
  have h1 := ho.load hb (hl s hs)
  refine ⟨h1.alive, h1.lt, fun t ht => ?_⟩
  have e := h1.only t ht
  subst e
  obtain ⟨c, h2, h3⟩ := (hE h.next h ⟨le_rfl, by simp⟩ hr).set t hs
  rw [ht] at h3
  cases h3
  exact absurd ho.lt (by omega)

end LCQ.Mem
