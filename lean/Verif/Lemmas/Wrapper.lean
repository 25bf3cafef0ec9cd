import Verif.Model.Wrapper
import Verif.Spec.Memory
import Mathlib.Data.List.Induction
import Mathlib.Order.Basic

/-!
# Invariants of the memory of the Python class for sparse matrices
-/

namespace LCQ.Wrap
open Mem

/-- what holds at any time: the history is sound, every member that points somewhere points to memory of its own, which is alive -/
structure Inv (w : World) : Prop where
  fresh : ∀ b k, HEv.alloc b k ∈ w.tr → b < w.next
  sound : Sound w.tr
  alive : ∀ k q b, w.ptr k q = some b → Alive w.tr b (kind q)
  own : ∀ k q l r b, w.ptr k q = some b → w.ptr l r = some b → k = l ∧ q = r

/-- what holds between two calls: the structs point to the arrays of their objects -/
structure Pts (w : World) : Prop where
  tgt : ∀ k b, w.ptr k .s = some b → ∀ q, w.tgt k q = w.ptr k q
  later : ∀ k q, w.count ≤ k → w.ptr k q = none

/-- what is not released is pointed to, or one of `S` -/
def Few (S : Nat → Prop) (w : World) : Prop := ∀ b, Leaked w.tr b → (∃ k q, w.ptr k q = some b) ∨ S b

/-- a block that nobody releases any more -/
structure Lost (w : World) (b : Nat) : Prop where
  alive : Leaked w.tr b
  lost : ∀ k q, w.ptr k q ≠ some b

theorem sound_snoc {tr : List HEv} {ev : HEv} (h : Sound tr) (he : Allowed tr ev) : Sound (tr ++ [ev]) := by
  intro pre e post hs
  rcases List.eq_nil_or_concat post with rfl | ⟨post', e', rfl⟩
  · obtain ⟨rfl, h2⟩ := List.append_inj' hs rfl
    injection h2 with h2
    subst h2
    exact he
  · rw [List.concat_eq_append, ← List.cons_append, ← List.append_assoc] at hs
    exact h _ _ _ (List.append_inj' hs rfl).1

theorem alive_snoc {tr : List HEv} {ev : HEv} {b : Nat} {k : Kind} (h : Alive tr b k) (he : ∀ k', ev ≠ .free b k') :
    Alive (tr ++ [ev]) b k := by
  refine ⟨List.mem_append_left _ h.1, fun k' hk => ?_⟩
  rcases List.mem_append.1 hk with hk | hk
  · exact h.2 k' hk
  · exact he k' (List.mem_singleton.1 hk).symm

theorem leaked_snoc {tr : List HEv} {ev : HEv} {b : Nat} (h : Leaked (tr ++ [ev]) b) :
    Leaked tr b ∨ ∃ k, ev = .alloc b k := by
  obtain ⟨k, h1, h2⟩ := h
  rcases List.mem_append.1 h1 with h1 | h1
  · exact .inl ⟨k, h1, fun k' hk => h2 k' (List.mem_append_left _ hk)⟩
  · exact .inr ⟨k, (List.mem_singleton.1 h1).symm⟩

theorem set_ptr (w : World) (k : Nat) (q : Part) (v : Option Nat) (l : Nat) (r : Part) :
    (w.set k q v).ptr l r = if l = k ∧ r = q then v else w.ptr l r := by
  unfold World.set
  by_cases h : l = k
  · subst h
    by_cases h2 : r = q
    · subst h2; simp
    · simp [h2]
  · simp [h]

/-! ## allocation -/

theorem new_ptr (w : World) (k : Nat) (q : Part) (n l : Nat) (r : Part) :
    (w.new k q n).ptr l r = if (l = k ∧ r = q) ∧ n ≠ 0 then some w.next else w.ptr l r := by
  unfold World.new
  by_cases h : n = 0
  · simp [h]
  · rw [if_neg h]
    show (w.set k q (some w.next)).ptr l r = _
    rw [set_ptr]
    simp [h]

theorem Inv.lt {w : World} (h : Inv w) {k : Nat} {q : Part} {b : Nat} (hb : w.ptr k q = some b) : b < w.next :=
  h.fresh b _ (h.alive k q b hb).1

theorem Inv.new {w : World} (h : Inv w) (k : Nat) (q : Part) (n : Nat) : Inv (w.new k q n) := by
  have hp := new_ptr w k q n
  unfold World.new at *
  by_cases hn : n = 0
  · rw [if_pos hn]; exact h
  rw [if_neg hn] at *
  refine ⟨?_, ?_, ?_, ?_⟩
  · intro b k' hb
    show b < w.next + 1
    rcases List.mem_append.1 hb with hb | hb
    · have := h.fresh b k' hb; omega
    · have := List.mem_singleton.1 hb
      injection this with h1
      omega
  · exact sound_snoc h.sound fun k' hb => absurd (h.fresh _ _ hb) (by omega)
  · intro l r b hb
    rw [hp] at hb
    split at hb
    · next hc =>
      injection hb with hb
      subst hb
      rw [hc.1.2]
      refine ⟨List.mem_append_right _ (List.mem_singleton.2 rfl), fun k' hk => ?_⟩
      rcases List.mem_append.1 hk with hk | hk
      · obtain ⟨pre, post, he⟩ := List.append_of_mem hk
        have := h.sound pre _ post he
        have := h.fresh _ _ (he ▸ List.mem_append_left _ this.1)
        omega
      · cases List.mem_singleton.1 hk
    · exact alive_snoc (h.alive l r b hb) fun k' => by simp
  · intro l r l' r' b hb hb'
    rw [hp] at hb hb'
    split at hb <;> split at hb'
    · next h1 h2 => exact ⟨h1.1.1.trans h2.1.1.symm, h1.1.2.trans h2.1.2.symm⟩
    · injection hb with hb
      have := h.lt hb'
      omega
    · injection hb' with hb'
      have := h.lt hb
      omega
    · exact h.own l r l' r' b hb hb'

theorem Few.new {w : World} {S : Nat → Prop} (h : Few S w) {k : Nat} {q : Part} (hn : w.ptr k q = none) (n : Nat) :
    Few S (w.new k q n) := by
  intro b hb
  have hp := new_ptr w k q n
  unfold World.new at *
  by_cases hc : n = 0
  · rw [if_pos hc] at *; exact h b hb
  rw [if_neg hc] at *
  rcases leaked_snoc hb with hb | ⟨k', hk⟩
  · rcases h b hb with ⟨l, r, hl⟩ | hs
    · refine .inl ⟨l, r, ?_⟩
      rw [hp, if_neg, hl]
      rintro ⟨⟨rfl, rfl⟩, _⟩
      rw [hn] at hl
      cases hl
    · exact .inr hs
  · injection hk with h1
    exact .inl ⟨k, q, by rw [hp, if_pos ⟨⟨rfl, rfl⟩, hc⟩, h1]⟩

theorem Lost.new {w : World} {b : Nat} (h : Lost w b) (hi : Inv w) (k : Nat) (q : Part) (n : Nat) : Lost (w.new k q n) b := by
  refine ⟨?_, fun l r hb => ?_⟩
  · unfold World.new
    split
    · exact h.alive
    · obtain ⟨k', hk⟩ := h.alive
      exact ⟨k', alive_snoc hk fun _ => by simp⟩
  · rw [new_ptr] at hb
    split at hb
    · injection hb with hb
      obtain ⟨k', hk⟩ := h.alive
      have := hi.fresh _ _ hk.1
      omega
    · exact h.lost l r hb

/-! ## release -/

theorem del_ptr (w : World) (k : Nat) (q : Part) (l : Nat) (r : Part) :
    (w.del k q).ptr l r = if l = k ∧ r = q then none else w.ptr l r := by
  unfold World.del
  split
  · next h =>
    split
    · next hc => rw [hc.1, hc.2, h]
    · rfl
  · next b h => exact set_ptr w k q none l r

theorem Inv.lose {w : World} (h : Inv w) (k : Nat) (q : Part) : Inv (w.set k q none) := by
  refine ⟨h.fresh, h.sound, ?_, ?_⟩
  · intro l r b hb
    rw [set_ptr] at hb
    split at hb
    · cases hb
    · exact h.alive l r b hb
  · intro l r l' r' b hb hb'
    rw [set_ptr] at hb hb'
    split at hb <;> split at hb' <;> first | cases hb | cases hb' | exact h.own l r l' r' b hb hb'

theorem Inv.del {w : World} (h : Inv w) (k : Nat) (q : Part) : Inv (w.del k q) := by
  have hp := del_ptr w k q
  unfold World.del at *
  cases hb : w.ptr k q with
  | none => exact h
  | some c =>
    rw [hb] at hp
    simp only at hp ⊢
    refine ⟨?_, ?_, ?_, (h.lose k q).own⟩
    · intro b k' hk
      rcases List.mem_append.1 hk with hk | hk
      · exact h.fresh b k' hk
      · cases List.mem_singleton.1 hk
    · exact sound_snoc h.sound (h.alive k q c hb)
    · intro l r b hl
      rw [hp] at hl
      split at hl
      · cases hl
      · next hne =>
        refine alive_snoc (h.alive l r b hl) fun k' he => ?_
        injection he with he
        subst he
        exact hne (h.own l r k q _ hl hb)

theorem Few.lose {w : World} {S : Nat → Prop} (h : Few S w) {k : Nat} {q : Part} (hs : ∀ b, w.ptr k q = some b → S b) :
    Few S (w.set k q none) := by
  intro b hb
  rcases h b hb with ⟨l, r, hl⟩ | h2
  · by_cases hc : l = k ∧ r = q
    · rw [hc.1, hc.2] at hl
      exact .inr (hs b hl)
    · exact .inl ⟨l, r, by rw [set_ptr, if_neg hc, hl]⟩
  · exact .inr h2

theorem Few.del {w : World} {S : Nat → Prop} (h : Few S w) (k : Nat) (q : Part) : Few S (w.del k q) := by
  intro b hb
  have hp := del_ptr w k q
  unfold World.del at *
  cases hk : w.ptr k q with
  | none => rw [hk] at hb; exact h b hb
  | some c =>
    simp only [hk] at hb hp
    have hbc : b ≠ c := by
      rintro rfl
      obtain ⟨_, _, h2⟩ := hb
      exact h2 (kind q) (List.mem_append_right _ (List.mem_singleton.2 rfl))
    rcases leaked_snoc hb with hb | ⟨k', he⟩
    · rcases h b hb with ⟨l, r, hl⟩ | h2
      · refine .inl ⟨l, r, ?_⟩
        rw [hp, if_neg, hl]
        rintro ⟨rfl, rfl⟩
        rw [hk] at hl
        exact hbc (Option.some.inj hl).symm
      · exact .inr h2
    · cases he

theorem Lost.lose {w : World} {b : Nat} (h : Lost w b) (k : Nat) (q : Part) : Lost (w.set k q none) b := by
  refine ⟨h.alive, fun l r hb => ?_⟩
  rw [set_ptr] at hb
  split at hb
  · cases hb
  · exact h.lost l r hb

theorem Lost.del {w : World} {b : Nat} (h : Lost w b) (k : Nat) (q : Part) : Lost (w.del k q) b := by
  refine ⟨?_, fun l r hb => ?_⟩
  · unfold World.del
    split
    · exact h.alive
    · next c hc =>
      obtain ⟨k', hk⟩ := h.alive
      refine ⟨k', alive_snoc hk fun _ he => ?_⟩
      injection he with he
      subst he
      exact h.lost k q hc
  · rw [del_ptr] at hb
    split at hb
    · cases hb
    · exact h.lost l r hb

/-! ## use -/

theorem use_ptr (w : World) (v : Option Nat) : (w.use v).ptr = w.ptr ∧ (w.use v).tgt = w.tgt ∧ (w.use v).count = w.count := by
  unfold World.use
  split <;> exact ⟨rfl, rfl, rfl⟩

theorem Inv.use {w : World} (h : Inv w) {v : Option Nat} (hv : ∀ b, v = some b → ∃ k q, w.ptr k q = some b) : Inv (w.use v) := by
  unfold World.use
  split
  · exact h
  · next b =>
    obtain ⟨k, q, hb⟩ := hv b rfl
    refine ⟨?_, sound_snoc h.sound ⟨_, h.alive k q b hb⟩, fun l r c hc => alive_snoc (h.alive l r c hc) fun _ => by simp, h.own⟩
    intro c k' hk
    rcases List.mem_append.1 hk with hk | hk
    · exact h.fresh c k' hk
    · cases List.mem_singleton.1 hk

theorem Few.use {w : World} {S : Nat → Prop} (h : Few S w) (v : Option Nat) : Few S (w.use v) := by
  unfold World.use
  split
  · exact h
  · intro b hb
    rcases leaked_snoc hb with hb | ⟨k', he⟩
    · exact h b hb
    · cases he

theorem Lost.use {w : World} {b : Nat} (h : Lost w b) (v : Option Nat) : Lost (w.use v) b := by
  refine ⟨?_, by rw [(use_ptr w v).1]; exact h.lost⟩
  unfold World.use
  split
  · exact h.alive
  · obtain ⟨k', hk⟩ := h.alive
    exact ⟨k', alive_snoc hk fun _ => by simp⟩

/-! ## calls -/

/-- what holds between two calls -/
structure Good (S : Nat → Prop) (w : World) : Prop where
  inv : Inv w
  pts : Pts w
  few : Few S w

theorem new_rest (w : World) (k : Nat) (q : Part) (n : Nat) : (w.new k q n).tgt = w.tgt ∧ (w.new k q n).count = w.count := by
  unfold World.new
  split <;> exact ⟨rfl, rfl⟩

theorem del_rest (w : World) (k : Nat) (q : Part) : (w.del k q).tgt = w.tgt ∧ (w.del k q).count = w.count := by
  unfold World.del
  split <;> exact ⟨rfl, rfl⟩

theorem Good.make {S : Nat → Prop} {w : World} (h : Good S w) (nx ni np : Nat) : Good S (w.make nx ni np) := by
  have hnone := fun q => h.pts.later w.count q (Nat.le_refl _)
  have hi := (((h.inv.new w.count .x nx).new w.count .i ni).new w.count .p np).new w.count .s 1
  have hf : Few S ((((w.new w.count .x nx).new w.count .i ni).new w.count .p np).new w.count .s 1) := by
    refine (((h.few.new (hnone _) nx).new ?_ ni).new ?_ np).new ?_ 1 <;> simp [new_ptr, hnone]
  have hp : ∀ l q, l ≠ w.count →
      ((((w.new w.count .x nx).new w.count .i ni).new w.count .p np).new w.count .s 1).ptr l q = w.ptr l q := by
    intro l q hl
    simp [new_ptr, hl]
  have ht : ((((w.new w.count .x nx).new w.count .i ni).new w.count .p np).new w.count .s 1).tgt = w.tgt := by
    simp only [(new_rest _ _ _ _).1]
  unfold World.make
  dsimp only
  generalize (((w.new w.count .x nx).new w.count .i ni).new w.count .p np).new w.count .s 1 = w1 at *
  have hi2 := hi.use (v := w1.ptr w.count .s) fun b hb => ⟨_, _, hb⟩
  have hf2 := hf.use (w1.ptr w.count .s)
  obtain ⟨u1, u2, _⟩ := use_ptr w1 (w1.ptr w.count .s)
  refine ⟨⟨hi2.fresh, hi2.sound, hi2.alive, hi2.own⟩, ⟨?_, ?_⟩, hf2⟩
  · intro k b hb q
    show Function.update (w1.use (w1.ptr w.count .s)).tgt w.count ((w1.use (w1.ptr w.count .s)).ptr w.count) k q = _
    by_cases hk : k = w.count
    · subst hk
      simp
    · simp only [u1, u2, Function.update_of_ne hk, ht] at *
      rw [hp k _ hk] at hb
      rw [hp k q hk]
      exact h.pts.tgt k b hb q
  · intro k q hk
    have hk : w.count + 1 ≤ k := hk
    show (w1.use (w1.ptr w.count .s)).ptr k q = none
    rw [u1, hp k q (by omega)]
    exact h.pts.later k q (by omega)

/-- what the destructor does -/
theorem drop_eq (w : World) (k : Nat) :
    w.drop k = (((w.set k .s none).del k .p).del k .i).del k .x := by
  unfold World.drop World.body
  split
  · next h =>
    have : w.del k .s = w := by
      rw [World.del, Option.isNone_iff_eq_none.1 h]
    rw [this]
  · rfl

theorem drop_ptr (w : World) (k l : Nat) (q : Part) : (w.drop k).ptr l q = if l = k then none else w.ptr l q := by
  rw [drop_eq]
  simp only [del_ptr, set_ptr]
  by_cases h : l = k
  · cases q <;> simp [h]
  · simp [h]

theorem drop_rest (w : World) (k : Nat) : (w.drop k).tgt = w.tgt ∧ (w.drop k).count = w.count := by
  rw [drop_eq]
  simp only [(del_rest _ _ _).1, (del_rest _ _ _).2]
  exact ⟨rfl, rfl⟩

theorem Good.drop {S : Nat → Prop} {w : World} (h : Good S w) (k : Nat) (hs : ∀ b, w.ptr k .s = some b → S b) :
    Good S (w.drop k) := by
  refine ⟨?_, ⟨?_, ?_⟩, ?_⟩
  · rw [drop_eq]
    exact (((h.inv.lose _ _).del _ _).del _ _).del _ _
  · intro l b hb q
    rw [drop_ptr] at *
    rw [(drop_rest w k).1]
    split at hb
    · cases hb
    · next hl =>
      rw [if_neg hl]
      exact h.pts.tgt l b hb q
  · intro l q hl
    rw [(drop_rest w k).2] at hl
    rw [drop_ptr, h.pts.later l q hl, ite_self]
  · rw [drop_eq]
    exact (((h.few.lose hs).del _ _).del _ _).del _ _

theorem read_ptr (w : World) (k : Nat) : (w.read k).ptr = w.ptr ∧ (w.read k).tgt = w.tgt ∧ (w.read k).count = w.count := by
  unfold World.read
  split
  · exact ⟨rfl, rfl, rfl⟩
  · simp only [(use_ptr _ _).1, (use_ptr _ _).2.1, (use_ptr _ _).2.2, and_self]

theorem Good.read {S : Nat → Prop} {w : World} (h : Good S w) (k : Nat) : Good S (w.read k) := by
  obtain ⟨r1, r2, r3⟩ := read_ptr w k
  refine ⟨?_, ⟨?_, ?_⟩, ?_⟩
  · unfold World.read
    split
    · exact h.inv
    · next b hb =>
      have ht := h.pts.tgt k b hb
      refine (((h.inv.use ?_).use ?_).use ?_).use ?_
      · rintro c ⟨⟩
        exact ⟨k, .s, hb⟩
      all_goals
        intro c hc
        rw [ht] at hc
        simp only [(use_ptr _ _).1]
        exact ⟨k, _, hc⟩
  · rw [r1, r2]; exact h.pts.tgt
  · rw [r1, r3]; exact h.pts.later
  · unfold World.read
    split
    · exact h.few
    · exact (((h.few.use _).use _).use _).use _

theorem Good.exec {S : Nat → Prop} {w : World} (h : Good S w) (c : Cmd) (hs : ∀ k b, w.ptr k .s = some b → S b) :
    Good S (w.exec c) := by
  cases c with
  | make nx ni np => exact h.make nx ni np
  | drop k => exact h.drop k (hs k)
  | load Q L R A =>
    cases A with
    | none => exact ((h.read Q).read L).read R
    | some k => exact (((h.read Q).read L).read R).read k

theorem session_snoc (cs : List Cmd) (c : Cmd) : session (cs ++ [c]) = (session cs).exec c := by
  simp [session, List.foldl_append]

theorem session_append (cs ds : List Cmd) : session (cs ++ ds) = ds.foldl World.exec (session cs) := by
  simp [session, List.foldl_append]

/-- `b` is the struct of some object at some time of the program -/
def IsStruct (cs : List Cmd) (b : Nat) : Prop := ∃ pre post k, cs = pre ++ post ∧ (session pre).ptr k .s = some b

theorem session_good (cs : List Cmd) : Good (IsStruct cs) (session cs) := by
  induction cs using List.reverseRecOn with
  | nil =>
    refine ⟨⟨by simp [session, World.empty], ?_, by simp [session, World.empty], by simp [session, World.empty]⟩,
      ⟨by simp [session, World.empty], by simp [session, World.empty]⟩, ?_⟩
    · intro pre ev post h
      cases pre <;> cases h
    · rintro b ⟨k, h, _⟩
      cases h
  | append_singleton cs c ih =>
    rw [session_snoc]
    refine Good.exec ⟨ih.inv, ih.pts, fun b hb => ?_⟩ c fun k b hb => ⟨cs, [c], k, rfl, hb⟩
    rcases ih.few b hb with h | ⟨pre, post, k, rfl, hk⟩
    · exact .inl h
    · exact .inr ⟨pre, post ++ [c], k, by simp, hk⟩

theorem Lost.exec {w : World} {b : Nat} (h : Lost w b) (hi : Inv w) (c : Cmd) : Lost (w.exec c) b := by
  have hr : ∀ {w : World} (h : Lost w b) (k : Nat), Lost (w.read k) b := by
    intro w h k
    unfold World.read
    split
    · exact h
    · exact (((h.use _).use _).use _).use _
  cases c with
  | make nx ni np =>
    have h1 := (((h.new hi w.count .x nx).new (hi.new ..) w.count .i ni).new ((hi.new ..).new ..) w.count .p np).new
      (((hi.new ..).new ..).new ..) w.count .s 1
    have h2 := h1.use (((((w.new w.count .x nx).new w.count .i ni).new w.count .p np).new w.count .s 1).ptr w.count .s)
    exact ⟨h2.alive, h2.lost⟩
  | drop k =>
    show Lost (w.drop k) b
    rw [drop_eq]
    exact (((h.lose _ _).del _ _).del _ _).del _ _
  | load Q L R A =>
    cases A with
    | none => exact hr (hr (hr h Q) L) R
    | some k => exact hr (hr (hr (hr h Q) L) R) k

theorem exec_mono (w : World) (c : Cmd) : ∃ t, (w.exec c).tr = w.tr ++ t := by
  have hn : ∀ (w : World) k q n, ∃ t, (w.new k q n).tr = w.tr ++ t := by
    intro w k q n; unfold World.new; split
    · exact ⟨[], by simp⟩
    · exact ⟨_, rfl⟩
  have hd : ∀ (w : World) k q, ∃ t, (w.del k q).tr = w.tr ++ t := by
    intro w k q; unfold World.del; split
    · exact ⟨[], by simp⟩
    · exact ⟨_, rfl⟩
  have hu : ∀ (w : World) v, ∃ t, (w.use v).tr = w.tr ++ t := by
    intro w v; unfold World.use; split
    · exact ⟨[], by simp⟩
    · exact ⟨_, rfl⟩
  have tr : ∀ {a b c : List HEv}, (∃ t, b = a ++ t) → (∃ t, c = b ++ t) → ∃ t, c = a ++ t := by
    rintro a b c ⟨t, rfl⟩ ⟨u, rfl⟩; exact ⟨t ++ u, by simp⟩
  have hr : ∀ (w : World) k, ∃ t, (w.read k).tr = w.tr ++ t := by
    intro w k; unfold World.read; split
    · exact ⟨[], by simp⟩
    · exact tr (tr (tr (hu _ _) (hu _ _)) (hu _ _)) (hu _ _)
  cases c with
  | make nx ni np => exact tr (tr (tr (tr (hn _ _ _ _) (hn _ _ _ _)) (hn _ _ _ _)) (hn _ _ _ _)) (hu _ _)
  | drop k =>
    show ∃ t, (w.drop k).tr = _
    rw [drop_eq]
    exact tr (tr (hd (w.set k .s none) _ _) (hd _ _ _)) (hd _ _ _)
  | load Q L R A =>
    cases A with
    | none => exact tr (tr (hr _ _) (hr _ _)) (hr _ _)
    | some k => exact tr (tr (tr (hr _ _) (hr _ _)) (hr _ _)) (hr _ _)

theorem session_mono (cs ds : List Cmd) : ∃ t, (session (cs ++ ds)).tr = (session cs).tr ++ t := by
  induction ds using List.reverseRecOn with
  | nil => exact ⟨[], by simp⟩
  | append_singleton ds d ih =>
    obtain ⟨t, ht⟩ := ih
    rw [← List.append_assoc, session_snoc]
    obtain ⟨u, hu⟩ := exec_mono (session (cs ++ ds)) d
    exact ⟨t ++ u, by rw [hu, ht, List.append_assoc]⟩

/-- the struct of an object stays where it is or is lost -/
theorem struct_kept {w : World} (hi : Inv w) (hp : Pts w) {k b : Nat} (hb : w.ptr k .s = some b) (c : Cmd) :
    (w.exec c).ptr k .s = some b ∨ Lost (w.exec c) b := by
  cases c with
  | make nx ni np =>
    left
    have hk : k ≠ w.count := by
      rintro rfl
      rw [hp.later _ _ (Nat.le_refl _)] at hb
      cases hb
    show (World.use _ _).ptr k .s = some b
    rw [(use_ptr _ _).1]
    simp [new_ptr, hk, hb]
  | drop l =>
    by_cases hl : k = l
    · right
      subst hl
      show Lost (w.drop k) b
      rw [drop_eq]
      have : Lost (w.set k .s none) b := by
        refine ⟨⟨_, hi.alive k .s b hb⟩, fun l r hl => ?_⟩
        rw [set_ptr] at hl
        split at hl
        · cases hl
        · next hc => exact hc (hi.own l r k .s b hl hb)
      exact ((this.del _ _).del _ _).del _ _
    · left
      show (w.drop l).ptr k .s = some b
      rw [drop_ptr, if_neg hl, hb]
  | load Q L R A =>
    left
    cases A <;> simp only [World.exec, (read_ptr _ _).1, hb]

theorem struct_leaks (pre post : List Cmd) {k b : Nat} (hb : (session pre).ptr k .s = some b) :
    Leaked (session (pre ++ post)).tr b := by
  have : (session (pre ++ post)).ptr k .s = some b ∨ Lost (session (pre ++ post)) b := by
    induction post using List.reverseRecOn with
    | nil => rw [List.append_nil]; exact .inl hb
    | append_singleton ds d ih =>
      have hg := session_good (pre ++ ds)
      rw [← List.append_assoc, session_snoc]
      rcases ih with ih | ih
      · exact struct_kept hg.inv hg.pts ih d
      · exact .inr (ih.exec hg.inv d)
  rcases this with h | h
  · exact ⟨_, (session_good _).inv.alive k .s b h⟩
  · exact h.alive

/-- blocks of an object -/
theorem make_ptr (w : World) (nx ni np : Nat) :
    (∃ b, (w.make nx ni np).ptr w.count .s = some b ∧ w.next ≤ b) ∧
    (nx ≠ 0 → ∃ b, (w.make nx ni np).ptr w.count .x = some b ∧ w.next ≤ b) ∧
    (ni ≠ 0 → ∃ b, (w.make nx ni np).ptr w.count .i = some b ∧ w.next ≤ b) ∧
    (np ≠ 0 → ∃ b, (w.make nx ni np).ptr w.count .p = some b ∧ w.next ≤ b) := by
  have hn : ∀ (w : World) k q n, w.next ≤ (w.new k q n).next := by
    intro w k q n
    unfold World.new
    split
    · exact Nat.le_refl _
    · exact Nat.le_succ _
  have h1 := hn w w.count .x nx
  have h2 := hn (w.new w.count .x nx) w.count .i ni
  have h3 := hn ((w.new w.count .x nx).new w.count .i ni) w.count .p np
  have hp : ∀ q, (w.make nx ni np).ptr w.count q =
      ((((w.new w.count .x nx).new w.count .i ni).new w.count .p np).new w.count .s 1).ptr w.count q := by
    intro q
    show (World.use _ _).ptr w.count q = _
    rw [(use_ptr _ _).1]
  simp only [hp]
  refine ⟨?_, ?_, ?_, ?_⟩
  · exact ⟨_, by rw [new_ptr, if_pos (by simp)], by omega⟩
  · intro h
    exact ⟨w.next, by simp [new_ptr, h], Nat.le_refl _⟩
  · intro h
    exact ⟨(w.new w.count .x nx).next, by simp [new_ptr, h], by omega⟩
  · intro h
    exact ⟨((w.new w.count .x nx).new w.count .i ni).next, by simp [new_ptr, h], by omega⟩

end LCQ.Wrap
