import Verif.Lemmas.MemoryClean

/-!
# Use after free, repeated runs, sparse qpOASES runs
-/

namespace LCQ.Mem

/-! ## pointers that stay -/

/-- the pointer is not changed -/
def Off (s : Slot) (st : Step) : Bool := !st.sets s

theorem Built.off {β : Type} {s : Slot} {m : Op β} (hm : Built (Off s) m) (h : Hp) :
    (m h).2.ptr s = h.ptr s :=
  hm.keeps (I := fun g => g.ptr s = h.ptr s) (fun st hs g hg => by
    rw [Step.ptr_of (by simpa [Off] using hs), hg]) h rfl

theorem runSafe_off {st : Step} (hs : RunSafe st = true) : Off (.os .main .work) st = true := by
  have h1 : ∀ {s : Slot}, s.isWork = false → (s == .os .main .work) = false := by
    intro s hs
    exact beq_eq_false_iff_ne.2 (isWork_main hs _)
  have h2 : ∀ {s : Slot}, s.isMain = false → (s == .os .main .work) = false := by
    intro s hs
    refine beq_eq_false_iff_ne.2 ?_
    rintro rfl
    simp [Slot.isMain] at hs
  cases st with
  | new s k =>
    simp only [RunSafe, Safe, Bool.and_eq_true, Bool.not_eq_true'] at hs
    simp [Off, Step.sets, h1 hs.1.2]
  | del s k =>
    simp only [RunSafe, Safe, Bool.and_eq_true, Bool.not_eq_true'] at hs
    simp [Off, Step.sets, h1 hs.1.2]
  | renew s k =>
    simp only [RunSafe, Safe, Bool.and_eq_true, Bool.not_eq_true'] at hs
    simp [Off, Step.sets, h1 hs.1.2]
  | newIfNull s k =>
    simp only [RunSafe, Safe, Bool.and_eq_true, Bool.not_eq_true'] at hs
    simp [Off, Step.sets, h1 hs.1.2]
  | drop s =>
    simp only [RunSafe, Keep, Bool.and_eq_true, Bool.not_eq_true'] at hs
    simp [Off, Step.sets, h2 hs.2.2]
  | free s k => rfl
  | touch s => rfl
  | setSparse b => rfl

theorem Built.work {β : Type} {m : Op β} (hm : Built RunSafe m) (h : Hp) :
    (m h).2.ptr (.os .main .work) = h.ptr (.os .main .work) := (hm.mono fun _ => runSafe_off).off h

/-! ## an old workspace -/

theorem touch_unsound {s : Slot} {b : Nat} {h : Hp} (hp : h.ptr s = some b) (hr : Released h.tr b) :
    ¬ Sound (touch s h).2.tr := by
  unfold touch
  rw [hp]
  intro hs
  obtain ⟨k, hk⟩ := (sound_snoc.1 hs).2
  obtain ⟨k', hr⟩ := hr
  exact hk.2 k' hr

theorem run_stale {c : Run} (hc : c.sel = .osqp) (hs : c.setup = false) {h : Hp} {b : Nat}
    (hw : h.ptr (.os .main .work) = some b) (hr : (chooseSolver .osqp h).1 = true) :
    ¬ Sound (run c h).2.tr := by
  rw [run_eq, hc]
  obtain ⟨m, hm, e | e⟩ := chooseOsqp h
  · rw [e] at hr
    simp at hr
  · rw [e]
    simp only [if_true]
    rw [afterInit_osqp hc]
    refine (afterSolve_built c).unsound ?_
    rw [hs]
    have hb : Built RunSafe (do beforeSolve c; osData .main; osLook .main) :=
      .bind (beforeSolve_built c) fun _ => .bind (osData_built _) fun _ => osLook_built _
    have h1 : (osqpHead (m h).2).2.ptr (.os .main .work) = some b := by
      rw [osqpHead_built.work, hm.work, hw]
    have h2 : (buildOsqp (m h).2).2.ptr (.os .main .work) = some b ∧
        Released (buildOsqp (m h).2).2.tr b := by
      rw [buildOsqp_eq]
      refine ⟨?_, (free_released h1).mono (osqpTail_built.starts _)⟩
      rw [osqpTail_built.work, free_ptr, h1]
    have h3 := hb.work (buildOsqp (m h).2).2
    have h4 := h2.2.mono (hb.starts _)
    rw [h2.1] at h3
    simp only [bind_apply] at h3 h4
    exact touch_unsound h3 h4

/-! ## a second run -/

/-- `g_tilde` keeps its value -/
abbrev OffG : Step → Bool := Off (.arr .gTilde)

theorem qoClear_off (w : Who) : Built OffG (qoClear w) :=
  .bind (.each fun _ _ => .del rfl) fun _ => .each fun _ _ => .del rfl

theorem qoEnd_off (w : Who) : Built OffG (qoEnd w) :=
  .bind (qoClear_off w) fun _ => .each fun _ _ => .drop rfl

theorem qoNew_off (w : Who) (sp : Bool) : Built OffG (qoNew w sp) := by
  simp only [qoNew, each]
  built

theorem qoCopy_off (v w : Who) (sp : Bool) : Built OffG (qoCopy v w sp) :=
  .bind (qoClear_off v) fun _ => .bind (.each fun _ _ => .touch rfl) fun _ =>
    .bind (qoNew_off v sp) fun _ => .each fun _ _ => .touch rfl

theorem osClear_off (w : Who) : Built OffG (osClear w) :=
  .bind (.free rfl) fun _ => .bind (.touch rfl) fun _ => .bind (.each fun _ _ => .del rfl) fun _ =>
    .bind (.each fun _ _ => .del rfl) fun _ => .bind (.each fun _ _ => .del rfl) fun _ => .del rfl

theorem osEnd_off (w : Who) : Built OffG (osEnd w) :=
  .bind (osClear_off w) fun _ => .each fun _ _ => .drop rfl

theorem osNewMats_off (w : Who) : Built OffG (osNewMats w) :=
  .bind (.each fun _ _ => .new rfl) fun _ => .each fun _ _ => .new rfl

theorem osTouch_off (w : Who) : Built OffG (osTouch w) :=
  .bind (.each fun _ _ => .touch rfl) fun _ => .each fun _ _ => .touch rfl

theorem osCopy_off (v w : Who) (ok : Bool) : Built OffG (osCopy v w ok) := by
  have h1 := osClear_off v
  have h2 := osTouch_off w
  have h3 := osNewMats_off v
  have h4 := osTouch_off v
  simp only [osCopy, osSetOptions, osData, osSetup, each]
  built

theorem subEnd_off (w : Who) : Built OffG (subEnd w) := .bind (osEnd_off w) fun _ => qoEnd_off w

theorem buildQpoases_off (sp : Bool) : Built OffG (buildQpoases sp) :=
  .bind (qoNew_off _ _) fun _ => .bind (qoCopy_off _ _ _) fun _ => .bind (qoEnd_off _) fun _ =>
    .bind (qoCopy_off _ _ _) fun _ => .bind (qoCopy_off _ _ _) fun _ => .bind (qoEnd_off _) fun _ =>
    subEnd_off _

theorem buildOsqp_off : Built OffG buildOsqp :=
  .bind (osNewMats_off _) fun _ => .bind (osCopy_off _ _ _) fun _ => .bind (osEnd_off _) fun _ =>
    .bind (osCopy_off _ _ _) fun _ => .bind (osCopy_off _ _ _) fun _ => .bind (osEnd_off _) fun _ =>
    subEnd_off _

theorem chooseSolver_off (sel : Sel) : Built OffG (chooseSolver sel) := by
  have h0 : ∀ m, Built OffG (touchCsc m) := fun m => touchCsc_built m fun _ => rfl
  have h1 := h0 .Q
  have h2 := h0 .A
  have h3 := buildQpoases_off true
  have h4 := buildQpoases_off false
  have h5 := buildOsqp_off
  unfold chooseSolver
  cases sel
  all_goals
    simp only [setBoxes, shiftGuess, each]
    built

theorem choose_inv {sel : Sel} {h : Hp} (hi : Inv All h) (hr : (chooseSolver sel h).1 = true) :
    Inv NoWork (chooseSolver sel h).2 := by
  by_cases hs : sel = .osqp
  · subst hs
    obtain ⟨m, hm, e | e⟩ := chooseOsqp h
    · rw [e] at hr
      simp at hr
    · rw [e]
      exact buildOsqp_inv (hm.run.use.invAll hi)
  · exact ((chooseSolver_qp hs).run.use.invAll hi).all

theorem run_built (c : Run) : Built Any (run c) := (run_keep c).any

/-- a second run loses the array of the first -/
theorem run_lost {c : Run} {h : Hp} (hi : Inv All h) (hr : (chooseSolver c.sel h).1 = true) {b : Nat}
    (hb : h.ptr (.arr .gTilde) = some b) : Lost b (run c h).2 := by
  rw [run_eq, hr]
  simp only [if_true]
  have h1 := choose_inv hi hr
  have h2 := (chooseSolver_off c.sel).off h
  rw [hb] at h2
  have h3 : Lost b (newA .gTilde (chooseSolver c.sel h).2).2 :=
    h1.lose_new (s := .arr .gTilde) (by simp [NoWork]) h2 _
  have e : ∀ g, afterInit c g = (do
      (do
        touch (.arr .g)
        touch (.arr .gTilde)
        let l ← isSet (.arr .lbL)
        let r ← isSet (.arr .lbR)
        when (l || r) do
          each (fun a => touch (.arr a)) [.lbL, .lbR]
          newA .gPhi
          each (fun a => touch (.arr a)) [.R, .L, .lbL, .lbR, .gPhi]
          touchCsc .R
          touchCsc .L
        when (c.sel == .osqp) (osSetOptions .main .opt)
        delA .lbTmp
        delA .ubTmp : Op Unit)
      each (fun a => touch (.arr a)) [.gk, .g, .gTilde, .xk, .C]
      touchCsc .C
      firstSolve c
      ensureIterates
      when c.first do
        setQk
        loopActs c c.acts
        when c.success finish : Op Unit) (newA .gTilde g).2 := by
    intro g
    simp only [afterInit, initRest, bind_apply]
  rw [e]
  refine Built.lost (A := Any) ?_ h3
  have k1 := (osSetOptions_built .main (s := .opt) rfl).any
  have k2 := (firstSolve_keep c).any
  have k3 := ensureIterates_built.any
  have k4 := setQk_built.any
  have k5 := (loopActs_built c c.acts).any
  have k6 := finish_built.any
  have k7 : ∀ m, Built Any (touchCsc m) := fun m => touchCsc_built m fun _ => rfl
  have k71 := k7 .R
  have k72 := k7 .L
  have k73 := k7 .C
  simp only [each]
  built

/-! ## a run with sparse qpOASES -/

theorem qoAll_split : qoAll = [.Q, .A, .Qi, .Qp, .Qx] ++ .Ai :: [.Ap, .Ax, .Qs, .As] := rfl

theorem build_lost {h : Hp} (hi : Inv All h) : ∃ b, h.next ≤ b ∧ Lost b (buildQpoases true h).2 := by
  have hm : MB h.next [] (qoNew .inner true) [.qo .inner .Ai] := by
    simp only [qoNew, each, if_true]
    apply MB.weaken
    must
  obtain ⟨b, h1, h2⟩ := (hm h ⟨le_rfl, by simp⟩).set (.qo .inner .Ai) (by simp)
  refine ⟨b, h1, ?_⟩
  have hq : Built (Off (.qo .inner .Ai)) (do
      qoCopy .outer .inner true
      qoClear .inner
      each (fun f => drop (.qo .inner f)) [.Q, .A, .Qi, .Qp, .Qx]) := by
    simp only [qoCopy, qoClear, qoNew, qoTouch, each, if_true]
    built
  have h3 := hq.off (qoNew .inner true h).2
  rw [h2] at h3
  have hs : Built SafeUse (do
      qoCopy .outer .inner true
      qoClear .inner
      each (fun f => drop (.qo .inner f)) [.Q, .A, .Qi, .Qp, .Qx]) :=
    .bind (qoCopy_built _ _ _).run.use fun _ => .bind (qoClear_built _).run.use fun _ =>
      .each fun _ _ => .drop rfl
  have hi2 := hs.invAll ((qoNew_built .inner true).run.use.invAll hi)
  have h4 := hi2.lose_drop trivial h3
  have e : buildQpoases true h = (do
      each (fun f => drop (.qo .inner f)) [.Ap, .Ax, .Qs, .As]
      qoCopy .arg .outer true
      qoCopy .main .arg true
      qoEnd .arg
      subEnd .outer : Op Unit) (drop (.qo .inner .Ai) ((do
      qoCopy .outer .inner true
      qoClear .inner
      each (fun f => drop (.qo .inner f)) [.Q, .A, .Qi, .Qp, .Qx] : Op Unit)
        (qoNew .inner true h).2).2).2 := by
    rw [buildQpoases]
    simp only [bind_apply]
    have e1 : ∀ g, qoEnd .inner g = each (fun f => drop (.qo .inner f)) [.Ap, .Ax, .Qs, .As]
        (drop (.qo .inner .Ai) (each (fun f => drop (.qo .inner f)) [.Q, .A, .Qi, .Qp, .Qx]
          (qoClear .inner g).2).2).2 := by
      intro g
      rw [qoEnd, bind_apply, qoAll_split, each_append]
      rfl
    rw [e1]
  rw [e]
  refine Built.lost (A := Any) ?_ h4
  exact .bind (.each fun _ _ => .drop rfl) fun _ => .bind (qoCopy_built _ _ _).any fun _ =>
    .bind (qoCopy_built _ _ _).any fun _ => .bind (qoEnd_built _).any fun _ =>
    (subEnd_built (by decide)).any

theorem run_qpSparse_lost {c : Run} (hc : c.sel = .qpSparse) {h : Hp} (hi : Inv All h)
    (hs : h.sparse = true) : ∃ b, h.next ≤ b ∧ Lost b (run c h).2 := by
  have h0 : ∀ m, Built RunSafe (touchCsc m) := fun m => touchCsc_built m fun _ => rfl
  have hpre : Built RunSafe (do setBoxes; touchCsc .Q; touchCsc .A) :=
    .bind setBoxes_built fun _ => .bind (h0 _) fun _ => h0 _
  obtain ⟨b, h1, h2⟩ := build_lost (hpre.run.use.invAll hi)
  refine ⟨b, (hpre.next h).trans h1, ?_⟩
  have e : chooseSolver .qpSparse h =
      (true, (buildQpoases true ((do setBoxes; touchCsc .Q; touchCsc .A : Op Unit) h).2).2) := by
    unfold chooseSolver
    rw [bind_apply, isSparse_fst, isSparse_snd, hs]
    simp only [if_true, bind_apply, ret]
  rw [run_eq, hc, e]
  simp only [if_true]
  have hk : Built Any (afterInit c) := by
    have h1 := (initRest_built c.sel).any
    have h2 := (touchArrs_built [.gk, .g, .gTilde, .xk, .C]).any
    have h3 := (h0 .C).any
    have h4 := (firstSolve_keep c).any
    have h5 := ensureIterates_built.any
    have h6 := setQk_built.any
    have h7 := (loopActs_built c c.acts).any
    have h8 := finish_built.any
    unfold afterInit
    built
  exact hk.lost h2

/-! ## everything that can still happen -/

theorem Call.any (c : Call) : Built Any c.op := by
  cases c with
  | run r => exact run_built r
  | _ => exact (Call.op_use (by simp)).any

theorem calls_any (cs : List Call) : Built Any (calls cs) := .each fun c _ => c.any

theorem life_any (ok : Bool) (cs : List Call) : Built Any (life ok cs) :=
  .bind (construct_built ok).any fun _ => .bind (calls_any cs) fun _ => destroy_built

theorem calls_append (a b : List Call) (h : Hp) : calls (a ++ b) h = calls b (calls a h).2 :=
  each_append _ a b h

/-- blocks allocated by a program are new -/
theorem Built.allocs {A : Step → Bool} {β : Type} {m : Op β} (hm : Built A m) (h : Hp) {b : Nat}
    {k : Kind} (hb : HEv.alloc b k ∈ (m h).2.tr) :
    HEv.alloc b k ∈ h.tr ∨ h.next ≤ b ∧ b < (m h).2.next := by
  have key : ∀ g, (∀ b k, HEv.alloc b k ∈ g.tr → HEv.alloc b k ∈ h.tr ∨ h.next ≤ b ∧ b < g.next) ∧
      h.next ≤ g.next → (∀ b k, HEv.alloc b k ∈ (m g).2.tr → HEv.alloc b k ∈ h.tr ∨
        h.next ≤ b ∧ b < (m g).2.next) ∧ h.next ≤ (m g).2.next := by
    refine hm.keeps (I := fun g => (∀ b k, HEv.alloc b k ∈ g.tr → HEv.alloc b k ∈ h.tr ∨
      h.next ≤ b ∧ b < g.next) ∧ h.next ≤ g.next) fun st _ g hg => ?_
    refine ⟨fun b k hb => ?_, hg.2.trans (step_next st g)⟩
    have hx := step_next st g
    have hfree : ∀ s k', HEv.alloc b k ∈ (Mem.free s k' g).2.tr → HEv.alloc b k ∈ g.tr := by
      intro s k'
      unfold Mem.free
      cases g.ptr s <;> simp
    have old : HEv.alloc b k ∈ g.tr → HEv.alloc b k ∈ h.tr ∨ h.next ≤ b ∧ b < (st.op g).2.next := by
      intro h1
      rcases hg.1 b k h1 with h2 | h2
      · exact .inl h2
      · exact .inr ⟨h2.1, h2.2.trans_le hx⟩
    have hnext : ∀ s k', (Mem.free s k' g).2.next = g.next := by
      intro s k'
      unfold Mem.free
      cases g.ptr s <;> rfl
    cases st with
    | new s k' =>
      have hb : HEv.alloc b k ∈ g.tr ++ [.alloc g.next k'] := hb
      rcases List.mem_append.1 hb with h1 | h1
      · exact old h1
      · simp at h1
        exact .inr ⟨by rw [h1.1]; exact hg.2, by
          show b < g.next + 1
          omega⟩
    | free s k' => exact old (hfree s k' hb)
    | drop s => exact old hb
    | del s k' => exact old (hfree s k' hb)
    | renew s k' =>
      have hb : HEv.alloc b k ∈ (Mem.free s k' g).2.tr ++ [.alloc (Mem.free s k' g).2.next k'] := hb
      rcases List.mem_append.1 hb with h1 | h1
      · exact old (hfree s k' h1)
      · simp at h1
        rw [hnext] at h1
        exact .inr ⟨by rw [h1.1]; exact hg.2, by
          show b < (Mem.free s k' g).2.next + 1
          rw [hnext]
          omega⟩
    | newIfNull s k' =>
      by_cases e : g.ptr s = none
      · have e1 : (Mem.newIfNull s k' g) = Mem.new s k' g := by simp [Mem.newIfNull, e]
        have hb : HEv.alloc b k ∈ (Mem.newIfNull s k' g).2.tr := hb
        show HEv.alloc b k ∈ h.tr ∨ h.next ≤ b ∧ b < (Mem.newIfNull s k' g).2.next
        rw [e1] at hb ⊢
        have hb : HEv.alloc b k ∈ g.tr ++ [.alloc g.next k'] := hb
        rcases List.mem_append.1 hb with h1 | h1
        · rcases hg.1 b k h1 with h2 | h2
          · exact .inl h2
          · exact .inr ⟨h2.1, Nat.lt_succ_of_lt h2.2⟩
        · simp at h1
          exact .inr ⟨by rw [h1.1]; exact hg.2, by
            show b < g.next + 1
            omega⟩
      · have hb : HEv.alloc b k ∈ (Mem.newIfNull s k' g).2.tr := hb
        have e1 : (Mem.newIfNull s k' g) = ((), g) := by simp [Mem.newIfNull, e]
        rw [e1] at hb
        exact old hb
    | touch s =>
      refine old ?_
      have hb : HEv.alloc b k ∈ (Mem.touch s g).2.tr := hb
      unfold Mem.touch at hb
      cases e : g.ptr s <;> rw [e] at hb <;> simpa using hb
    | setSparse c => exact old hb
  exact (key h ⟨fun b k h1 => .inl h1, le_rfl⟩).1 b k hb

end LCQ.Mem
