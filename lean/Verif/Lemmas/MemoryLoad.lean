import Verif.Lemmas.MemoryEnd

/-!
# Successful loads
-/

namespace LCQ.Mem

/-- success leaves the object in the given mode -/
def SP (b : Bool) (m : Op Bool) : Prop := ∀ h, (m h).1 = true → (m h).2.sparse = b

theorem SP.set (b : Bool) : SP b (do setSparse b; ret true) := fun _ _ => rfl
theorem SP.retFalse (b : Bool) : SP b (ret false) := fun _ h => by simp [ret] at h
theorem SP.bind {β : Type} {b : Bool} {m : Op β} {f : β → Op Bool} (hf : ∀ x, SP b (f x)) :
    SP b (m >>= f) := by
  intro h
  rw [bind_apply]
  exact hf _ _
theorem SP.ite {b c : Bool} {m n : Op Bool} (hm : SP b m) (hn : SP b n) :
    SP b (if c = true then m else n) := by
  split
  · exact hm
  · exact hn
theorem SP.andIf {b : Bool} {m k : Op Bool} (hk : SP b k) : SP b (andIf m k) := by
  unfold Mem.andIf
  exact .bind fun x => .ite hk (.retFalse b)

theorem loadDense_sp (c : Load) : SP false (loadDense c) :=
  .ite (.andIf (.andIf (.bind fun _ => .andIf (.andIf (.andIf (.set _)))))) (.retFalse _)

theorem loadSparse_sp (c : Load) : SP true (loadSparse c) :=
  .andIf (.andIf (.andIf (.andIf (.andIf (.bind fun _ => .set _)))))

theorem loadFiles_sp (c : FileLoad) : SP false (loadFiles c) := by
  intro h hr
  unfold loadFiles at hr ⊢
  rw [bind_apply, bind_apply] at hr ⊢
  have hb : SP false (loadFilesBody c) :=
    .andIf (.bind fun _ => .bind fun _ => .bind fun _ => .ite (.bind fun _ => .bind fun _ => .bind fun _ =>
      .ite (.bind fun _ => .bind fun _ => .bind fun _ => .bind fun _ => .bind fun _ =>
      .ite (.bind fun _ => .bind fun _ => .bind fun _ =>
      .ite (.bind fun _ => .bind fun _ => .bind fun _ => .ite (.set _) (.retFalse _))
      (.retFalse _)) (.retFalse _)) (.retFalse _)) (.retFalse _))
  have h1 : (each (fun l => drop (.loc l)) fileLocs (loadFilesBody c h).2).2.sparse =
      (loadFilesBody c h).2.sparse :=
    (Built.each (A := fun st => match st with | .drop _ => true | _ => false) fun _ _ =>
      .drop rfl).sparse (fun _ => rfl) _
  simp only [ret] at hr ⊢
  rw [h1]
  exact hb h hr

/-- the program of a load -/
def Call.load : Call → Option (Op Bool)
  | .loadDense c => some (Mem.loadDense c)
  | .loadSparse c => some (Mem.loadSparse c)
  | .loadFiles c => some (Mem.loadFiles c)
  | _ => none

theorem void_snd {β : Type} (m : Op β) (h : Hp) : (void m h).2 = (m h).2 := by
  unfold void
  rw [bind_apply]
  rfl

theorem Call.load_op {c : Call} {m : Op Bool} (hc : c.load = some m) (h : Hp) :
    (c.op h).2 = (m h).2 := by
  cases c <;> simp [Call.load] at hc <;> subst hc <;> simp only [Call.op, void_snd]

/-- pointers point to blocks that were allocated -/
def Bounded (h : Hp) : Prop := ∀ s b, h.ptr s = some b → b < h.next

theorem Bounded.step (st : Step) {h : Hp} (hb : Bounded h) : Bounded (st.op h).2 := by
  have hd : ∀ s {g : Hp}, Bounded g → Bounded (Mem.drop s g).2 := by
    intro s g hg t b ht
    have ht : Function.update g.ptr s none t = some b := ht
    by_cases e : t = s
    · rw [e, Function.update_self] at ht
      simp at ht
    · rw [Function.update_of_ne e] at ht
      exact hg t b ht
  have hn : ∀ s k {g : Hp}, Bounded g → Bounded (Mem.new s k g).2 := by
    intro s k g hg t b ht
    have ht : Function.update g.ptr s (some g.next) t = some b := ht
    show b < g.next + 1
    by_cases e : t = s
    · rw [e, Function.update_self] at ht
      simp at ht
      omega
    · rw [Function.update_of_ne e] at ht
      exact Nat.lt_succ_of_lt (hg t b ht)
  have hf : ∀ s k, Bounded (Mem.free s k h).2 := by
    intro s k
    unfold Mem.free
    cases h.ptr s with
    | none => exact hb
    | some _ => exact hb
  cases st with
  | new s k => exact hn s k hb
  | free s k => exact hf s k
  | drop s => exact hd s hb
  | del s k => exact hd s (hf s k)
  | renew s k => exact hn s k (hf s k)
  | newIfNull s k =>
    show Bounded (Mem.newIfNull s k h).2
    unfold Mem.newIfNull
    split
    · exact hn s k hb
    · exact hb
  | touch s =>
    show Bounded (Mem.touch s h).2
    unfold Mem.touch
    cases h.ptr s with
    | none => exact hb
    | some _ => exact hb
  | setSparse b => exact hb

theorem Built.bounded {β : Type} {m : Op β} (hm : Built Any m) {h : Hp} (hb : Bounded h) :
    Bounded (m h).2 := hm.keeps (I := Bounded) (fun st _ _ hg => hg.step st) h hb

theorem bounded_empty : Bounded Hp.empty := fun _ _ h => by simp [Hp.empty] at h

/-- what a load allocates is held in members at its end -/
theorem Call.load_last {c : Call} {m : Op Bool} (hc : c.load = some m) {h : Hp} (hb : Bounded h)
    (hr : (m h).1 = true) : Last h.next (m h).2.next (m h).2 := by
  have h0 : NL h.next [] h := ⟨fun b h1 h2 => absurd h2 (not_lt.2 h1), fun s _ b h1 => hb s b h1, le_rfl⟩
  cases c with
  | loadDense c =>
    simp [Call.load] at hc
    subst hc
    unfold Last
    rw [loadDense_sp c h hr]
    exact (loadDense_ns _ c h h0 hr).ks
  | loadSparse c =>
    simp [Call.load] at hc
    subst hc
    unfold Last
    rw [loadSparse_sp c h hr]
    exact (loadSparse_ns _ c h h0 hr).ks
  | loadFiles c =>
    simp [Call.load] at hc
    subst hc
    unfold Last
    rw [loadFiles_sp c h hr]
    exact (loadFiles_ns _ c h h0 hr).ks
  | _ => simp [Call.load] at hc

theorem Last.call {c : Call} (hc : c.load = none) {n0 n1 : Nat} {h : Hp} (hl : Last n0 n1 h) :
    Last n0 n1 (c.op h).2 := by
  cases c with
  | setOptions b => exact hl.keep (setOptions_built b).runKeep
  | run r => exact hl.keep (run_keep r)
  | toSparse => exact hl.toSparse
  | toDense ok => exact hl.toDense ok
  | _ => simp [Call.load] at hc

theorem Last.calls {cs : List Call} : ∀ {n0 n1 : Nat} {h : Hp}, (∀ c ∈ cs, c.load = none) →
    Last n0 n1 h → Last n0 n1 (calls cs h).2 := by
  induction cs with
  | nil => exact fun _ h => h
  | cons c r ih =>
    intro n0 n1 h hc hl
    rw [calls_cons]
    exact ih (fun d hd => hc d (by simp [hd])) (hl.call (hc c (by simp)))

theorem Last.released {n0 n1 : Nat} {h : Hp} (hl : Last n0 n1 h) {b : Nat} (h0 : n0 ≤ b) (h1 : b < n1) :
    Released (destroy h).2.tr b := by
  rcases hl.1 b h0 h1 with h2 | ⟨s, hs, hp⟩
  · exact h2.mono (destroy_built.starts h)
  · exact destroy_released (dataSlots_owned _ s hs) hp

/-- members that every load overwrites, in the mode that it selects -/
def Call.must : Call → List Slot
  | .loadSparse _ => sparseMust
  | _ => denseMust

theorem Call.load_lost {c : Call} {m : Op Bool} (hc : c.load = some m) {h : Hp} (hi : Inv All h)
    (hr : (m h).1 = true) {s : Slot} (hs : s ∈ c.must) {b : Nat} (hp : h.ptr s = some b) :
    Lost b (m h).2 := by
  have hd : ∀ s ∈ denseMust, s.isLoc = false := by decide
  have hsp : ∀ s ∈ sparseMust, s.isLoc = false := by decide
  cases c with
  | loadDense c =>
    simp [Call.load] at hc
    subst hc
    exact Mem.load_lost (loadDense_built c) (fun n => loadDense_ms n c) hd hi hr hs hp
  | loadSparse c =>
    simp [Call.load] at hc
    subst hc
    exact Mem.load_lost (loadSparse_built c) (fun n => loadSparse_ms n c) hsp hi hr hs hp
  | loadFiles c =>
    simp [Call.load] at hc
    subst hc
    exact Mem.load_lost (loadFiles_built c) (fun n => loadFiles_ms n c) hd hi hr hs hp
  | _ => simp [Call.load] at hc

theorem Call.load_clean {c : Call} {m : Op Bool} (hc : c.load = some m) : NS 0 ctorSlots m loadSlots := by
  cases c with
  | loadDense c =>
    simp [Call.load] at hc
    subst hc
    exact loadDense_clean c
  | loadSparse c =>
    simp [Call.load] at hc
    subst hc
    exact loadSparse_clean c
  | loadFiles c =>
    simp [Call.load] at hc
    subst hc
    exact loadFiles_clean c
  | _ => simp [Call.load] at hc

theorem loadSlots_owned : ∀ s ∈ loadSlots, s.owned = true := by decide
theorem endSlots_owned : ∀ s ∈ endSlots, s.owned = true := by decide

theorem options_clean (os : List Bool) : NB 0 loadSlots (calls (os.map .setOptions)) loadSlots := by
  induction os with
  | nil => exact fun _ h => h
  | cons b r ih =>
    intro h hn
    rw [List.map_cons, calls_cons]
    exact ih _ (setOptions_clean b h hn)

theorem NL.released {D : List Slot} {h : Hp} (hn : NL 0 D h) (hD : ∀ s ∈ D, s.owned = true) {b : Nat}
    (hb : b < h.next) : Released (destroy h).2.tr b := by
  rcases hn.held b (Nat.zero_le _) hb with h2 | ⟨s, hs, hp⟩
  · exact h2.mono (destroy_built.starts h)
  · exact destroy_released (hD s hs) hp

/-- steps that allocate nothing -/
def NoNew : Step → Bool
  | .new _ _ => false
  | .renew _ _ => false
  | .newIfNull _ _ => false
  | _ => true

/-- destruction allocates nothing -/
theorem destroy_next (h : Hp) : (destroy h).2.next = h.next := by
  rw [destroy_steps]
  have hb : Built NoNew (steps destroySteps) := by
    refine .each fun st hst => .step st ?_
    have h1 : destroySteps.all NoNew = true := by decide
    exact List.all_eq_true.1 h1 st hst
  refine hb.keeps (I := fun g => g.next = h.next) (fun st hs g hg => ?_) h rfl
  have hf : ∀ s k, (Mem.free s k g).2.next = g.next := by
    intro s k
    unfold Mem.free
    cases g.ptr s <;> rfl
  cases st with
  | free s k => exact (hf s k).trans hg
  | del s k => exact (hf s k).trans hg
  | drop s => exact hg
  | touch s =>
    show (Mem.touch s g).2.next = h.next
    unfold Mem.touch
    cases g.ptr s <;> exact hg
  | setSparse b => exact hg
  | _ => simp [NoNew] at hs

/-! ## copies -/

theorem free_unsound {s : Slot} {k : Kind} {h : Hp} {b : Nat} (hb : h.ptr s = some b)
    (hr : Released h.tr b) : ¬ Sound (Mem.free s k h).2.tr := by
  unfold Mem.free
  rw [hb]
  intro hs
  obtain ⟨k', hr⟩ := hr
  exact ((sound_snoc.1 hs).2).2 k' hr

theorem Step.unsound {s : Slot} {st : Step} (hs : st.frees s = true) {h : Hp} {b : Nat}
    (hb : h.ptr s = some b) (hr : Released h.tr b) : ¬ Sound (st.op h).2.tr := by
  cases st with
  | free t k =>
    simp [Step.frees] at hs
    subst hs
    exact free_unsound hb hr
  | del t k =>
    simp [Step.frees] at hs
    subst hs
    exact free_unsound hb hr
  | renew t k =>
    simp [Step.frees] at hs
    subst hs
    have hn : Built Any (Mem.new t k) := .new rfl
    exact hn.unsound (free_unsound hb hr)
  | new t k => simp [Step.frees] at hs
  | drop t => simp [Step.frees] at hs
  | newIfNull t k => simp [Step.frees] at hs
  | touch t => simp [Step.frees] at hs
  | setSparse b => simp [Step.frees] at hs

theorem steps_unsound {s : Slot} {b : Nat} : ∀ {l : List Step}, frees s l = true → ∀ {h : Hp},
    h.ptr s = some b → Released h.tr b → ¬ Sound (steps l h).2.tr := by
  intro l
  induction l with
  | nil => simp [frees]
  | cons st r ih =>
    intro hf h hb hr
    rw [frees, Bool.or_eq_true_iff, Bool.and_eq_true_iff, Bool.not_eq_true'] at hf
    show ¬ Sound (each Step.op (st :: r) h).2.tr
    rw [each, bind_apply]
    rcases hf with hf | hf
    · exact (steps_built r).unsound (Step.unsound hf hb hr)
    · exact ih hf.2 (by rw [Step.ptr_of hf.1, hb]) (hr.mono ((Built.step st rfl : Built Any _).starts h))

theorem destroyBoth_unsound {s : Slot} {b : Nat} {h : Hp} (ho : s.owned = true)
    (hb : h.ptr s = some b) (hc : copyPtr h s = some b) : ¬ Sound (destroyBoth h).2.tr := by
  have h1 := destroy_released ho hb
  unfold destroyBoth
  generalize (destroy h).2 = g at h1 ⊢
  have h2 : ∀ g' : Hp, g'.ptr s = some b → Released g'.tr b → ¬ Sound (destroy g').2.tr := by
    intro g' e1 e2
    rw [destroy_steps]
    exact steps_unsound (frees_owned ho) e1 e2
  exact h2 _ hc h1

end LCQ.Mem
