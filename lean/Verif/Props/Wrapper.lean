import Verif.Lemmas.Wrapper

/-!
# C82: the memory of the Python class for sparse matrices
-/

namespace LCQ.Wrap
open Mem

/-- **C82.**  Whatever a Python program does with objects of the class, no block is released twice or used after its release, and
every block is released by the counterpart of the function that allocated it. -/
theorem C82_sound (cs : List Cmd) : Sound (session cs).tr := (session_good cs).inv.sound

/-- **C82.**  Every object of the class leaks memory: the call that creates it allocates a block that is never released, whatever
happens later.  (Blocks of different calls are different.) -/
theorem C82_leak (pre post : List Cmd) (nx ni np : Nat) :
    ∃ b, (∀ k, HEv.alloc b k ∉ (session pre).tr) ∧ (∃ k, HEv.alloc b k ∈ (session (pre ++ [.make nx ni np])).tr) ∧
      Leaked (session (pre ++ .make nx ni np :: post)).tr b := by
  have hg := session_good pre
  have hg' := session_good (pre ++ [.make nx ni np])
  obtain ⟨⟨b, hb, hle⟩, _⟩ := make_ptr (session pre) nx ni np
  have hb' : (session (pre ++ [.make nx ni np])).ptr (session pre).count .s = some b := by
    rw [session_snoc]
    exact hb
  refine ⟨b, fun k hk => ?_, ⟨_, (hg'.inv.alive _ _ _ hb').1⟩, ?_⟩
  · have := hg.inv.fresh b k hk
    omega
  · have := struct_leaks _ post hb'
    rwa [List.append_assoc] at this

/-- **C82.**  Nothing else is leaked: when an object goes away all of its arrays are released, and a block that is never released
is a struct, or belongs to an object that is still there at the end. -/
theorem C82_released (pre post : List Cmd) (k : Nat) {q : Part} (hq : q ≠ .s) {b : Nat} (hb : (session pre).ptr k q = some b) :
    Released (session (pre ++ .drop k :: post)).tr b := by
  have h : Released (session (pre ++ [.drop k])).tr b := by
    rw [session_snoc]
    show Released ((session pre).drop k).tr b
    rw [drop_eq]
    have hf : ∀ (w : World) (q : Part) (b : Nat), w.ptr k q = some b → HEv.free b (kind q) ∈ (w.del k q).tr := by
      intro w q b hb
      unfold World.del
      rw [hb]
      simp
    have hm : ∀ (w : World) (q : Part) (e : HEv), e ∈ w.tr → e ∈ (w.del k q).tr := by
      intro w q e he
      unfold World.del
      split
      · exact he
      · exact List.mem_append_left _ he
    refine ⟨kind q, ?_⟩
    cases q with
    | s => exact absurd rfl hq
    | p => exact hm _ _ _ (hm _ _ _ (hf _ _ _ (by simp [set_ptr, hb])))
    | i => exact hm _ _ _ (hf _ _ _ (by simp [del_ptr, set_ptr, hb]))
    | x => exact hf _ _ _ (by simp [del_ptr, set_ptr, hb])
  obtain ⟨j, hj⟩ := h
  obtain ⟨t, ht⟩ := session_mono (pre ++ [.drop k]) post
  refine ⟨j, ?_⟩
  rw [show pre ++ Cmd.drop k :: post = (pre ++ [.drop k]) ++ post by simp, ht]
  exact List.mem_append_left _ hj

/-- **C82.**  See `C82_released`. -/
theorem C82_only (cs : List Cmd) {b : Nat} (h : Leaked (session cs).tr b) :
    (∃ k q, (session cs).ptr k q = some b) ∨ IsStruct cs b := (session_good cs).few b h

/-- **C82.**  A load reads the struct and the arrays of every matrix it is given (which by `C82_sound` are alive). -/
theorem C82_load (pre : List Cmd) (Q L R : Nat) (A : Option Nat) (k : Nat) (hk : k = Q ∨ k = L ∨ k = R ∨ A = some k) {q : Part}
    {c : Nat} (hc : (session pre).ptr k .s = some c) {b : Nat} (hb : (session pre).ptr k q = some b) :
    ∃ t, (session (pre ++ [.load Q L R A])).tr = (session pre).tr ++ t ∧ HEv.use b ∈ t := by
  have hg := session_good pre
  have hu : ∀ (w : World) v, ∃ t, (w.use v).tr = w.tr ++ t ∧ ∀ b, v = some b → HEv.use b ∈ t := by
    intro w v
    unfold World.use
    split
    · exact ⟨[], by simp, by simp⟩
    · exact ⟨_, rfl, by simp⟩
  have hr : ∀ (w : World) (l : Nat), w.ptr = (session pre).ptr → w.tgt = (session pre).tgt →
      ∃ t, (w.read l).tr = w.tr ++ t ∧ (l = k → HEv.use b ∈ t) := by
    intro w l hp ht
    unfold World.read
    split
    · next h =>
      refine ⟨[], by simp, ?_⟩
      rintro rfl
      rw [hp, hc] at h
      cases h
    · next d hd =>
      obtain ⟨t1, e1, m1⟩ := hu w (some d)
      obtain ⟨t2, e2, m2⟩ := hu (w.use (some d)) (w.tgt l .p)
      obtain ⟨t3, e3, m3⟩ := hu ((w.use (some d)).use (w.tgt l .p)) (w.tgt l .i)
      obtain ⟨t4, e4, m4⟩ := hu (((w.use (some d)).use (w.tgt l .p)).use (w.tgt l .i)) (w.tgt l .x)
      refine ⟨t1 ++ t2 ++ t3 ++ t4, by rw [e4, e3, e2, e1]; simp, ?_⟩
      rintro rfl
      rw [hp] at hd
      have hto : ∀ r, w.tgt l r = (session pre).ptr l r := by
        intro r
        rw [ht]
        exact hg.pts.tgt l d hd r
      cases q with
      | s =>
        rw [hd] at hb
        simp [m1 _ hb]
      | p => simp [m2 b ((hto _).trans hb)]
      | i => simp [m3 b ((hto _).trans hb)]
      | x => simp [m4 b ((hto _).trans hb)]
  obtain ⟨t1, e1, m1⟩ := hr (session pre) Q rfl rfl
  obtain ⟨p1, q1, _⟩ := read_ptr (session pre) Q
  obtain ⟨t2, e2, m2⟩ := hr ((session pre).read Q) L p1 q1
  obtain ⟨p2, q2, _⟩ := read_ptr ((session pre).read Q) L
  obtain ⟨t3, e3, m3⟩ := hr (((session pre).read Q).read L) R (p2.trans p1) (q2.trans q1)
  obtain ⟨p3, q3, _⟩ := read_ptr (((session pre).read Q).read L) R
  rw [session_snoc]
  cases A with
  | none =>
    refine ⟨t1 ++ t2 ++ t3, by simp only [World.exec]; rw [e3, e2, e1]; simp, ?_⟩
    rcases hk with rfl | rfl | rfl | h
    · simp [m1 rfl]
    · simp [m2 rfl]
    · simp [m3 rfl]
    · cases h
  | some l =>
    obtain ⟨t4, e4, m4⟩ := hr ((((session pre).read Q).read L).read R) l (p3.trans (p2.trans p1)) (q3.trans (q2.trans q1))
    refine ⟨t1 ++ t2 ++ t3 ++ t4, by simp only [World.exec]; rw [e4, e3, e2, e1]; simp, ?_⟩
    rcases hk with rfl | rfl | rfl | h
    · simp [m1 rfl]
    · simp [m2 rfl]
    · simp [m3 rfl]
    · injection h with h
      simp [m4 h]

/-- **C82.**  A new object has its own struct, and a block for each array of positive length. -/
theorem C82_make (pre : List Cmd) (nx ni np : Nat) :
    (session (pre ++ [.make nx ni np])).count = (session pre).count + 1 ∧
    ∀ q, (q = .s ∨ (q = .x ∧ nx ≠ 0) ∨ (q = .i ∧ ni ≠ 0) ∨ (q = .p ∧ np ≠ 0)) →
      ∃ b, (session (pre ++ [.make nx ni np])).ptr (session pre).count q = some b := by
  rw [session_snoc]
  obtain ⟨⟨b, hb, _⟩, h2, h3, h4⟩ := make_ptr (session pre) nx ni np
  refine ⟨rfl, ?_⟩
  rintro q (rfl | ⟨rfl, h⟩ | ⟨rfl, h⟩ | ⟨rfl, h⟩)
  · exact ⟨b, hb⟩
  · exact (h2 h).imp fun _ h => h.1
  · exact (h3 h).imp fun _ h => h.1
  · exact (h4 h).imp fun _ h => h.1

/-- the program of the example `warm_up_osqp.py` as far as the class is concerned: three matrices, a load, and the end -/
def osqpExample : List Cmd := [.make 2 2 3, .make 1 1 3, .make 1 1 3, .load 0 1 2 none, .drop 0, .drop 1, .drop 2]

/-- its history: the three structs (blocks 3, 7, 11) are left -/
example : (∀ b, Leaked (session osqpExample).tr b → b = 3 ∨ b = 7 ∨ b = 11) ∧ Leaked (session osqpExample).tr 7 := by
  have h : (session osqpExample).tr = [.alloc 0 .c, .alloc 1 .obj, .alloc 2 .obj, .alloc 3 .c, .use 3, .alloc 4 .c, .alloc 5 .obj,
      .alloc 6 .obj, .alloc 7 .c, .use 7, .alloc 8 .c, .alloc 9 .obj, .alloc 10 .obj, .alloc 11 .c, .use 11, .use 3, .use 2, .use 1,
      .use 0, .use 7, .use 6, .use 5, .use 4, .use 11, .use 10, .use 9, .use 8, .free 2 .obj, .free 1 .obj, .free 0 .c,
      .free 6 .obj, .free 5 .obj, .free 4 .c, .free 10 .obj, .free 9 .obj, .free 8 .c] := by decide +kernel
  rw [h]
  refine ⟨?_, ⟨.c, by simp, by simp⟩⟩
  rintro b ⟨k, h1, h2⟩
  simp only [List.mem_cons, HEv.alloc.injEq, reduceCtorEq, HEv.free.injEq, false_or, or_false, List.not_mem_nil, not_or] at h1 h2
  have h3 := h2 .obj
  have h4 := h2 .c
  simp at h3 h4
  omega

/-- **C82.**  The class must not be copied: with the copy constructor generated by C++ the struct of the copy points to the arrays of
the original, so that reading the copy after the original went away uses released memory. -/
theorem C82_copy (nx ni np : Nat) (h : nx ≠ 0) :
    ¬ Sound ((((session [.make nx ni np]).copy 0 nx ni np).drop 0).read 1).tr := by
  have hl : ∀ {tr : List HEv} {b : Nat} {k : Kind}, HEv.free b k ∈ tr → ¬ Sound (tr ++ [.use b]) := by
    intro tr b k hf hs
    obtain ⟨k', _, h2⟩ := hs tr (.use b) [] rfl
    exact h2 k hf
  have e : ∃ tr, ((((session [.make nx ni np]).copy 0 nx ni np).drop 0).read 1).tr = tr ++ [.use 0] ∧ HEv.free 0 .c ∈ tr := by
    by_cases hi : ni = 0 <;> by_cases hp : np = 0 <;>
      simp [session, World.exec, World.make, World.copy, World.drop, World.body, World.read, World.new, World.use, World.del,
        World.set, World.empty, Function.update, h, hi, hp, kind]
    all_goals exact ⟨_, (List.dropLast_concat_getLast (by simp)).symm, by simp⟩
  obtain ⟨tr, e1, e2⟩ := e
  rw [e1]
  exact hl e2

end LCQ.Wrap
