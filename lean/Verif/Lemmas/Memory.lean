import Verif.Spec.Memory

/-!
# Primitive heap steps and what they keep
-/

namespace LCQ.Mem

/-- how the blocks a pointer refers to are managed -/
def Slot.kind : Slot → Kind
  | .arr _ => .arr
  | .csc _ _ => .c
  | .opt => .c
  | .qo _ .Qs => .obj
  | .qo _ .As => .obj
  | .qo _ _ => .arr
  | .os _ _ => .c
  | .loc _ => .arr

/-- A primitive step. -/
inductive Step where
  | new (s : Slot) (k : Kind)
  | free (s : Slot) (k : Kind)
  | drop (s : Slot)
  | del (s : Slot) (k : Kind)
  | renew (s : Slot) (k : Kind)
  | newIfNull (s : Slot) (k : Kind)
  | touch (s : Slot)
  | setSparse (b : Bool)

/-- what the step does -/
def Step.op : Step → Op Unit
  | .new s k => Mem.new s k
  | .free s k => Mem.free s k
  | .drop s => Mem.drop s
  | .del s k => Mem.del s k
  | .renew s k => Mem.renew s k
  | .newIfNull s k => Mem.newIfNull s k
  | .touch s => Mem.touch s
  | .setSparse b => Mem.setSparse b

/-- a program made of steps that satisfy `A` -/
inductive Built (A : Step → Bool) : {β : Type} → Op β → Prop where
  | ret {β : Type} (b : β) : Built A (ret b)
  | bind {β γ : Type} {m : Op β} {f : β → Op γ} : Built A m → (∀ a, Built A (f a)) →
      Built A (m >>= f)
  | step (st : Step) : A st = true → Built A st.op
  | isSet (s : Slot) : Built A (isSet s)
  | isSparse : Built A isSparse

variable {A : Step → Bool}

theorem bind_apply {β γ : Type} (m : Op β) (f : β → Op γ) (h : Hp) :
    (m >>= f) h = f (m h).1 (m h).2 := by
  cases h
  rfl

theorem isSet_fst (s : Slot) (h : Hp) : (isSet s h).1 = (h.ptr s).isSome := by
  cases h
  rfl

theorem isSet_snd (s : Slot) (h : Hp) : (isSet s h).2 = h := by
  cases h
  rfl

theorem isSparse_fst (h : Hp) : (isSparse h).1 = h.sparse := by
  cases h
  rfl

theorem isSparse_snd (h : Hp) : (isSparse h).2 = h := by
  cases h
  rfl

theorem Built.mono {B : Step → Bool} {β : Type} {m : Op β} (h : Built A m)
    (hab : ∀ st, A st = true → B st = true) : Built B m := by
  induction h with
  | ret b => exact .ret b
  | bind _ _ ih1 ih2 => exact .bind ih1 ih2
  | step st hs => exact .step st (hab _ hs)
  | isSet s => exact .isSet s
  | isSparse => exact .isSparse

/-- what every permitted step keeps, the program keeps -/
theorem Built.keeps {β : Type} {m : Op β} (h : Built A m) {I : Hp → Prop}
    (hI : ∀ st, A st = true → ∀ h, I h → I (st.op h).2) : ∀ h, I h → I (m h).2 := by
  induction h with
  | ret b => exact fun _ h => h
  | bind _ _ ih1 ih2 => exact fun h hi => ih2 _ _ (ih1 h hi)
  | step st hs => exact hI st hs
  | isSet s => exact fun _ h => h
  | isSparse => exact fun _ h => h

theorem Built.new {s : Slot} {k : Kind} (h : A (.new s k) = true) : Built A (new s k) :=
  .step (.new s k) h
theorem Built.free {s : Slot} {k : Kind} (h : A (.free s k) = true) : Built A (free s k) :=
  .step (.free s k) h
theorem Built.drop {s : Slot} (h : A (.drop s) = true) : Built A (drop s) := .step (.drop s) h
theorem Built.del {s : Slot} {k : Kind} (h : A (.del s k) = true) : Built A (del s k) :=
  .step (.del s k) h
theorem Built.renew {s : Slot} {k : Kind} (h : A (.renew s k) = true) : Built A (renew s k) :=
  .step (.renew s k) h
theorem Built.newIfNull {s : Slot} {k : Kind} (h : A (.newIfNull s k) = true) :
    Built A (newIfNull s k) := .step (.newIfNull s k) h
theorem Built.touch {s : Slot} (h : A (.touch s) = true) : Built A (touch s) := .step (.touch s) h
theorem Built.setSparse {b : Bool} (h : A (.setSparse b) = true) : Built A (setSparse b) :=
  .step (.setSparse b) h

theorem Built.ite {β : Type} {c : Prop} [Decidable c] {m n : Op β} (hm : Built A m) (hn : Built A n) :
    Built A (if c then m else n) := by
  split <;> assumption

theorem Built.when {b : Bool} {m : Op Unit} (hm : Built A m) : Built A (when b m) :=
  Built.ite hm (.ret _)

theorem Built.each {β : Type} {f : β → Op Unit} {l : List β} (h : ∀ a ∈ l, Built A (f a)) :
    Built A (each f l) := by
  induction l with
  | nil => exact .ret ()
  | cons a l ih =>
    exact .bind (h a (by simp)) fun _ => ih fun b hb => h b (by simp [hb])

theorem Built.andIf {m k : Op Bool} (hm : Built A m) (hk : Built A k) : Built A (andIf m k) :=
  .bind hm fun _ => .ite hk (.ret _)

theorem Built.void {β : Type} {m : Op β} (hm : Built A m) : Built A (void m) :=
  .bind hm fun _ => .ret _

theorem Built.newA {a : Arr} (h : A (.new (.arr a) .arr) = true) : Built A (newA a) := .new h
theorem Built.delA {a : Arr} (h : A (.del (.arr a) .arr) = true) : Built A (delA a) := .del h
theorem Built.newIf {a : Arr} {b : Bool} (h : A (.new (.arr a) .arr) = true) :
    Built A (newIf b a) := .when (.newA h)

/-! ## soundness -/

theorem sound_nil : Sound [] := by
  intro pre ev post h
  simp at h

theorem sound_snoc {tr : List HEv} {ev : HEv} : Sound (tr ++ [ev]) ↔ Sound tr ∧ Allowed tr ev := by
  constructor
  · intro h
    refine ⟨fun pre e post hp => h pre e (post ++ [ev]) (by simp [hp]), h tr ev [] rfl⟩
  · rintro ⟨h1, h2⟩ pre e post hp
    rcases List.eq_nil_or_concat post with rfl | ⟨q, z, rfl⟩
    · have := List.append_inj' hp rfl
      obtain ⟨rfl, h3⟩ := this
      cases h3
      exact h2
    · have h3 : tr ++ [ev] = (pre ++ e :: q) ++ [z] := by simp [hp]
      have := List.append_inj' h3 rfl
      exact h1 _ _ _ this.1

/-- every pointer in `P` refers to a living block; distinct pointers refer to distinct blocks; the
temporary OSQP wrappers have no workspace -/
structure Inv (P : Slot → Prop) (h : Hp) : Prop where
  sound : Sound h.tr
  fresh : ∀ b k, HEv.alloc b k ∈ h.tr → b < h.next
  good : ∀ s b, P s → h.ptr s = some b → Alive h.tr b s.kind
  known : ∀ s b, h.ptr s = some b → b < h.next
  freed : ∀ b k, HEv.free b k ∈ h.tr → b < h.next
  inj : ∀ s t b, h.ptr s = some b → h.ptr t = some b → s = t
  tmp : ∀ w, w ≠ Who.main → h.ptr (.os w .work) = none

/-- pointers that are always valid -/
def NoWork (s : Slot) : Prop := s ≠ .os .main .work

/-- all pointers -/
def All (_ : Slot) : Prop := True

theorem Inv.weaken {P P' : Slot → Prop} {h : Hp} (hi : Inv P h) (hp : ∀ s, P' s → P s) :
    Inv P' h := { hi with good := fun s b hs hb => hi.good s b (hp s hs) hb }

theorem Alive.snoc {tr : List HEv} {b : Nat} {k : Kind} (h : Alive tr b k) {ev : HEv}
    (he : ∀ k', ev ≠ .free b k') : Alive (tr ++ [ev]) b k := by
  refine ⟨by simp [h.1], fun k' hk => ?_⟩
  rcases List.mem_append.1 hk with h1 | h1
  · exact h.2 k' h1
  · exact he k' (by simpa using Eq.symm (List.mem_singleton.1 h1))

theorem Inv.new {P P' : Slot → Prop} {h : Hp} {s : Slot} {k : Kind} (hi : Inv P h)
    (hk : k = s.kind) (hw : ∀ w, w ≠ Who.main → s ≠ .os w .work)
    (hp : ∀ t, P' t → t ≠ s → P t) : Inv P' (new s k h).2 := by
  have hn : ∀ k, HEv.alloc h.next k ∉ h.tr := fun k hk => absurd (hi.fresh _ _ hk) (by omega)
  have hf : ∀ k, HEv.free h.next k ∉ h.tr := fun k hk => absurd (hi.freed _ _ hk) (by omega)
  refine ⟨sound_snoc.2 ⟨hi.sound, hn⟩, ?_, ?_, ?_, ?_, ?_, ?_⟩
  · intro b k' hb
    rcases List.mem_append.1 hb with h1 | h1
    · exact Nat.lt_succ_of_lt (hi.fresh _ _ h1)
    · simp at h1
      show b < h.next + 1
      omega
  · intro t b ht hb
    by_cases e : t = s
    · subst e
      simp [Mem.new] at hb
      subst hb
      refine ⟨by simp [Mem.new, hk], fun k' h1 => ?_⟩
      simp [Mem.new] at h1
      exact hf _ h1
    · simp [Mem.new, e] at hb
      exact (hi.good t b (hp t ht e) hb).snoc (by simp)
  · intro t b hb
    show b < h.next + 1
    by_cases e : t = s
    · subst e
      simp [Mem.new] at hb
      omega
    · simp [Mem.new, e] at hb
      have := hi.known _ _ hb
      omega
  · intro b k' hb
    simp [Mem.new] at hb
    exact Nat.lt_succ_of_lt (hi.freed _ _ hb)
  · intro t u b ht hu
    by_cases e1 : t = s <;> by_cases e2 : u = s
    · rw [e1, e2]
    · subst e1
      simp [Mem.new, e2] at ht hu
      have := hi.known _ _ hu
      omega
    · subst e2
      simp [Mem.new, e1] at ht hu
      have := hi.known _ _ ht
      omega
    · simp [Mem.new, e1, e2] at ht hu
      exact hi.inj _ _ _ ht hu
  · intro w hm
    have := hw w hm
    simp [Mem.new, Ne.symm this]
    exact hi.tmp w hm

theorem Inv.drop {P P' : Slot → Prop} {h : Hp} {s : Slot} (hi : Inv P h)
    (hp : ∀ t, P' t → t ≠ s → P t) : Inv P' (Mem.drop s h).2 := by
  have key : ∀ t b, (Mem.drop s h).2.ptr t = some b → t ≠ s ∧ h.ptr t = some b := by
    intro t b hb
    by_cases e : t = s
    · subst e
      simp [Mem.drop] at hb
    · simp [Mem.drop, e] at hb
      exact ⟨e, hb⟩
  refine ⟨hi.sound, hi.fresh, ?_, ?_, hi.freed, ?_, ?_⟩
  · intro t b ht hb
    exact hi.good t b (hp t ht (key t b hb).1) (key t b hb).2
  · intro t b hb
    exact hi.known t b (key t b hb).2
  · intro t u b ht hu
    exact hi.inj t u b (key _ _ ht).2 (key _ _ hu).2
  · intro w hm
    have := hi.tmp w hm
    by_cases e : Slot.os w .work = s
    · simp [Mem.drop, e]
    · simp [Mem.drop, e, this]

theorem Inv.free {P P' : Slot → Prop} {h : Hp} {s : Slot} {k : Kind} (hi : Inv P h) (hs : P s)
    (hk : k = s.kind) (hp : ∀ t, P' t → P t ∧ t ≠ s) : Inv P' (free s k h).2 := by
  unfold Mem.free
  cases e : h.ptr s with
  | none => exact hi.weaken fun t ht => (hp t ht).1
  | some b =>
    have hl := hi.good s b hs e
    refine ⟨sound_snoc.2 ⟨hi.sound, hk ▸ hl⟩, ?_, ?_, hi.known, ?_, hi.inj, hi.tmp⟩
    · intro c k' hc
      simp at hc
      exact hi.fresh _ _ hc
    · intro t c ht hc
      refine (hi.good t c (hp t ht).1 hc).snoc fun k' h1 => ?_
      simp only [HEv.free.injEq] at h1
      exact (hp t ht).2 (hi.inj t s c hc (by rw [e, h1.1]))
    · intro c k' hc
      simp at hc
      rcases hc with h1 | h1
      · exact hi.freed _ _ h1
      · rw [h1.1]
        exact hi.known _ _ e

theorem Inv.touch {P : Slot → Prop} {h : Hp} {s : Slot} (hi : Inv P h) (hs : P s) :
    Inv P (touch s h).2 := by
  unfold Mem.touch
  cases e : h.ptr s with
  | none => exact hi
  | some b =>
    have hl := hi.good s b hs e
    refine ⟨sound_snoc.2 ⟨hi.sound, _, hl⟩, ?_, ?_, hi.known, ?_, hi.inj, hi.tmp⟩
    · intro c k' hc
      simp at hc
      exact hi.fresh _ _ hc
    · intro t c ht hc
      exact (hi.good t c ht hc).snoc (by simp)
    · intro c k' hc
      simp at hc
      exact hi.freed _ _ hc

theorem Inv.del {P : Slot → Prop} {h : Hp} {s : Slot} {k : Kind} (hi : Inv P h) (hs : P s)
    (hk : k = s.kind) : Inv P (del s k h).2 :=
  Inv.drop (P := fun t => P t ∧ t ≠ s) (hi.free hs hk fun _ h => h) fun _ h1 h2 => ⟨h1, h2⟩

theorem Inv.renew {P : Slot → Prop} {h : Hp} {s : Slot} {k : Kind} (hi : Inv P h) (hs : P s)
    (hk : k = s.kind) (hw : ∀ w, w ≠ Who.main → s ≠ .os w .work) : Inv P (renew s k h).2 :=
  Inv.new (P := fun t => P t ∧ t ≠ s) (hi.free hs hk fun _ h => h) hk hw fun _ h1 h2 => ⟨h1, h2⟩

/-- freeing the missing workspace of a temporary wrapper -/
theorem Inv.freeTmp {P : Slot → Prop} {h : Hp} {w : Who} {k : Kind} (hi : Inv P h)
    (hw : w ≠ .main) : (Mem.free (.os w .work) k h).2 = h := by
  simp [Mem.free, hi.tmp w hw]

/-- a workspace pointer -/
def Slot.isWork : Slot → Bool
  | .os _ .work => true
  | _ => false

/-- steps that keep all pointers other than the main workspace valid -/
def Safe : Step → Bool
  | .new s k => k == s.kind && !s.isWork
  | .free s _ => match s with
    | .os w .work => w != .main
    | _ => false
  | .drop _ => true
  | .del s k => k == s.kind && !s.isWork
  | .renew s k => k == s.kind && !s.isWork
  | .newIfNull s k => k == s.kind && !s.isWork
  | .touch s => !s.isWork
  | .setSparse _ => true

/-- the same with use of the main workspace -/
def SafeUse : Step → Bool
  | .touch _ => true
  | st => Safe st

theorem isWork_main {s : Slot} (h : s.isWork = false) (w : Who) : s ≠ .os w .work := by
  rintro rfl
  simp [Slot.isWork] at h

theorem Inv.step {P : Slot → Prop} (hP : ∀ s, s.isWork = false → P s) {st : Step}
    (ht : ∀ s, st = .touch s → P s) (hs : SafeUse st = true) {h : Hp} (hi : Inv P h) :
    Inv P (st.op h).2 := by
  cases st with
  | new s k =>
    simp [SafeUse, Safe] at hs
    exact hi.new hs.1 (fun w _ => isWork_main hs.2 w) fun _ h _ => h
  | free s k =>
    have : ∃ w, w ≠ Who.main ∧ s = .os w .work := by
      simp [SafeUse, Safe] at hs
      split at hs
      · exact ⟨_, by simpa using hs, rfl⟩
      · simp at hs
    obtain ⟨w, h1, rfl⟩ := this
    show Inv P (Mem.free _ _ h).2
    rw [hi.freeTmp h1]
    exact hi
  | drop s => exact hi.drop fun _ h _ => h
  | del s k =>
    simp [SafeUse, Safe] at hs
    exact hi.del (hP _ hs.2) hs.1
  | renew s k =>
    simp [SafeUse, Safe] at hs
    exact hi.renew (hP _ hs.2) hs.1 fun w _ => isWork_main hs.2 w
  | newIfNull s k =>
    simp [SafeUse, Safe] at hs
    show Inv P (Mem.newIfNull _ _ h).2
    unfold Mem.newIfNull
    split
    · exact hi.new hs.1 (fun w _ => isWork_main hs.2 w) fun _ h _ => h
    · exact hi
  | touch s => exact hi.touch (ht s rfl)
  | setSparse b =>
    exact { hi with }

theorem noWork_of {s : Slot} (h : s.isWork = false) : NoWork s := isWork_main h _

theorem Built.inv {β : Type} {m : Op β} (hb : Built Safe m) {h : Hp} (hi : Inv NoWork h) :
    Inv NoWork (m h).2 :=
  hb.keeps (I := Inv NoWork) (fun st hs h hi => hi.step (fun _ => noWork_of)
    (by
      rintro s rfl
      simp [Safe] at hs
      exact noWork_of hs)
    (by cases st <;> simp_all [SafeUse, Safe])) h hi

theorem Built.invAll {β : Type} {m : Op β} (hb : Built SafeUse m) {h : Hp} (hi : Inv All h) :
    Inv All (m h).2 :=
  hb.keeps (I := Inv All) (fun st hs h hi => hi.step (fun _ _ => trivial) (fun _ _ => trivial) hs)
    h hi

theorem Built.use {β : Type} {m : Op β} (hb : Built Safe m) : Built SafeUse m :=
  hb.mono fun st h => by cases st <;> simp_all [SafeUse, Safe]

/-- anything -/
def Any (_ : Step) : Bool := true

theorem Built.any {β : Type} {m : Op β} (hb : Built A m) : Built Any m := hb.mono fun _ _ => rfl

/-! ## the trace grows -/

/-- the trace starts with `t` -/
def Starts (t : List HEv) (h : Hp) : Prop := ∃ u, h.tr = t ++ u

theorem Starts.snoc {t : List HEv} {h : Hp} (hs : Starts t h) (ev : HEv) :
    ∃ u, h.tr ++ [ev] = t ++ u := by
  obtain ⟨u, hu⟩ := hs
  exact ⟨u ++ [ev], by simp [hu]⟩

theorem Starts.free {t : List HEv} {h : Hp} (hs : Starts t h) (s : Slot) (k : Kind) :
    Starts t (Mem.free s k h).2 := by
  unfold Mem.free
  cases h.ptr s
  · exact hs
  · exact hs.snoc _

theorem Starts.step {t : List HEv} (st : Step) {h : Hp} (hs : Starts t h) : Starts t (st.op h).2 := by
  cases st with
  | new s k => exact hs.snoc _
  | free s k => exact hs.free s k
  | drop s => exact hs
  | del s k => exact hs.free s k
  | renew s k => exact (hs.free s k).snoc _
  | newIfNull s k =>
    show Starts t (Mem.newIfNull s k h).2
    unfold Mem.newIfNull
    split
    · exact hs.snoc _
    · exact hs
  | touch s =>
    show Starts t (Mem.touch s h).2
    unfold Mem.touch
    cases h.ptr s
    · exact hs
    · exact hs.snoc _
  | setSparse b => exact hs

theorem Built.starts {β : Type} {m : Op β} (hb : Built A m) (h : Hp) : Starts h.tr (m h).2 :=
  hb.keeps (I := Starts h.tr) (fun st _ _ hi => hi.step st) h ⟨[], by simp⟩

theorem Built.unsound {β : Type} {m : Op β} (hb : Built A m) {h : Hp} (hn : ¬ Sound h.tr) :
    ¬ Sound (m h).2.tr := by
  obtain ⟨u, hu⟩ := hb.starts h
  intro hs
  apply hn
  intro pre ev post hp
  exact hs pre ev (post ++ u) (by rw [hu, hp]; simp)

theorem Released.mono {h h' : Hp} {b : Nat} (hr : Released h.tr b) (hs : Starts h.tr h') :
    Released h'.tr b := by
  obtain ⟨u, hu⟩ := hs
  obtain ⟨k, hk⟩ := hr
  exact ⟨k, by rw [hu]; simp [hk]⟩

/-! ## lost blocks stay lost -/

/-- alive, and no pointer refers to it -/
structure Lost (b : Nat) (h : Hp) : Prop where
  alive : Leaked h.tr b
  lt : b < h.next
  none : ∀ s, h.ptr s ≠ some b

theorem Lost.free {b : Nat} {h : Hp} (hl : Lost b h) (s : Slot) (k : Kind) :
    Lost b (Mem.free s k h).2 := by
  unfold Mem.free
  cases e : h.ptr s with
  | none => exact hl
  | some c =>
    obtain ⟨k', hk⟩ := hl.alive
    refine ⟨⟨k', hk.snoc fun k'' h1 => ?_⟩, hl.lt, hl.none⟩
    simp only [HEv.free.injEq] at h1
    exact hl.none s (by rw [e, h1.1])

theorem Lost.new {b : Nat} {h : Hp} (hl : Lost b h) (s : Slot) (k : Kind) :
    Lost b (Mem.new s k h).2 := by
  obtain ⟨k', hk⟩ := hl.alive
  refine ⟨⟨k', hk.snoc (by simp)⟩, Nat.lt_succ_of_lt hl.lt, fun t ht => ?_⟩
  by_cases e : t = s
  · subst e
    simp [Mem.new] at ht
    have := hl.lt
    omega
  · simp [Mem.new, e] at ht
    exact hl.none t ht

theorem Lost.drop {b : Nat} {h : Hp} (hl : Lost b h) (s : Slot) : Lost b (Mem.drop s h).2 := by
  refine ⟨hl.alive, hl.lt, fun t ht => ?_⟩
  by_cases e : t = s
  · subst e
    simp [Mem.drop] at ht
  · simp [Mem.drop, e] at ht
    exact hl.none t ht

theorem Lost.step {b : Nat} (st : Step) {h : Hp} (hl : Lost b h) : Lost b (st.op h).2 := by
  cases st with
  | new s k => exact hl.new s k
  | free s k => exact hl.free s k
  | drop s => exact hl.drop s
  | del s k => exact (hl.free s k).drop s
  | renew s k => exact (hl.free s k).new s k
  | newIfNull s k =>
    show Lost b (Mem.newIfNull s k h).2
    unfold Mem.newIfNull
    split
    · exact hl.new s k
    · exact hl
  | touch s =>
    show Lost b (Mem.touch s h).2
    unfold Mem.touch
    cases h.ptr s
    · exact hl
    · obtain ⟨k', hk⟩ := hl.alive
      exact ⟨⟨k', hk.snoc (by simp)⟩, hl.lt, hl.none⟩
  | setSparse b => exact ⟨hl.alive, hl.lt, hl.none⟩

theorem Built.lost {β : Type} {m : Op β} (hb : Built A m) {b : Nat} {h : Hp} (hl : Lost b h) :
    Lost b (m h).2 := hb.keeps (I := Lost b) (fun st _ _ hi => hi.step st) h hl

/-- overwriting a pointer loses its block -/
theorem Inv.lose_new {P : Slot → Prop} {h : Hp} (hi : Inv P h) {s : Slot} (hs : P s) {b : Nat}
    (hb : h.ptr s = some b) (k : Kind) : Lost b (Mem.new s k h).2 := by
  refine ⟨⟨_, (hi.good s b hs hb).snoc (by simp)⟩, Nat.lt_succ_of_lt (hi.known _ _ hb), fun t ht => ?_⟩
  have hlt := hi.known _ _ hb
  by_cases e : t = s
  · subst e
    simp [Mem.new] at ht
    omega
  · simp [Mem.new, e] at ht
    exact e (hi.inj _ _ _ ht hb)

/-- so does the end of its scope -/
theorem Inv.lose_drop {P : Slot → Prop} {h : Hp} (hi : Inv P h) {s : Slot} (hs : P s) {b : Nat}
    (hb : h.ptr s = some b) : Lost b (Mem.drop s h).2 := by
  refine ⟨⟨_, hi.good s b hs hb⟩, hi.known _ _ hb, fun t ht => ?_⟩
  by_cases e : t = s
  · subst e
    simp [Mem.drop] at ht
  · simp [Mem.drop, e] at ht
    exact e (hi.inj _ _ _ ht hb)

end LCQ.Mem
