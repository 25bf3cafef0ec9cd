import Verif.Lemmas.MemoryLoad
import Verif.Lemmas.MemoryUse

/-!
# C46: memory of a problem object

The theorems hold for every list of calls on one object: dense, sparse and file loads with any choice of
null arguments and any failing check, runs with any subsolver, any result of the subsolver and any number
of iterations, options and mode switches.  `trace` is the list of heap events from the constructor to the
end of the destructor.
-/

namespace LCQ.Mem

/-- no call fails to set up OSQP after an earlier call did set it up -/
def NoFailAfterSetup (cs : List Call) : Prop :=
  ∀ pre c post, cs = pre ++ c :: post → c.fails = true → ∀ d ∈ pre, d.sets = false

theorem noStale_of {cs : List Call} : ∀ {had : Bool}, (∀ pre c post, cs = pre ++ c :: post →
    c.fails = true → had = false ∧ ∀ d ∈ pre, d.sets = false) → NoStale had cs := by
  induction cs with
  | nil => exact fun _ => trivial
  | cons c r ih =>
    intro had h
    refine ⟨fun hf => (h [] c r rfl hf).1, ih fun pre d post e hf => ?_⟩
    obtain ⟨h1, h2⟩ := h (c :: pre) d post (by rw [e]; rfl) hf
    refine ⟨?_, fun x hx => h2 x (by simp [hx])⟩
    rw [h1, h2 c (by simp)]
    rfl

theorem construct_nowork (ok : Bool) : (construct ok Hp.empty).2.ptr (.os .main .work) = none :=
  (construct_built ok).use.nowork rfl

/-- an object as the calls `cs` left it -/
def object (ok : Bool) (cs : List Call) : Hp := (calls cs (construct ok Hp.empty).2).2

theorem trace_eq (ok : Bool) (cs : List Call) : trace ok cs = (destroy (object ok cs)).2.tr := by
  unfold trace object
  rw [life_eq]

theorem object_cons (ok : Bool) (a : List Call) (c : Call) (b : List Call) :
    object ok (a ++ c :: b) = (calls b (c.op (object ok a)).2).2 := by
  unfold object
  rw [calls_append, calls_cons]

theorem object_inv {ok : Bool} {cs : List Call} (h : NoFailAfterSetup cs) :
    Inv All (object ok cs) := by
  unfold object
  exact calls_inv (had := false) (noStale_of fun pre c post e hf => ⟨rfl, h pre c post e hf⟩)
    (construct_inv ok) fun _ => construct_nowork ok

/-- **C46.**  Whatever is called on an object, from its construction to its destruction no array is
released twice, none is used after its release, and every array is released by the counterpart of the
function that allocated it; excepted are objects on which `osqp_setup` succeeded in one run and rejected
its input in a later one, see `C46_stale`. -/
theorem C46_sound (ok : Bool) (cs : List Call) (h : NoFailAfterSetup cs) : Sound (trace ok cs) := by
  rw [trace_eq]
  exact (destroy_inv (object_inv h)).sound

/-- **C46.**  The exception is real: when the object still has the workspace of an earlier OSQP run, a
run in which `osqp_setup` rejects its input (after the choice of the solver succeeded) uses that workspace
after its release, whatever is called afterwards. -/
theorem C46_stale (ok : Bool) (pre post : List Call) (c : Run) (hc : c.sel = .osqp)
    (hs : c.setup = false) (hr : (chooseSolver .osqp (object ok pre)).1 = true)
    (hw : ((object ok pre).ptr (.os .main .work)).isSome = true) :
    ¬ Sound (trace ok (pre ++ .run c :: post)) := by
  obtain ⟨b, hb⟩ := Option.isSome_iff_exists.1 hw
  rw [trace_eq, object_cons]
  exact destroy_built.unsound ((calls_any post).unsound (run_stale hc hs hb hr))

/-- a load that succeeds -/
def load1 : Load := {}

/-- an OSQP run -/
def osqp1 (setup : Bool) : Run := { sel := .osqp, setup := setup, first := setup, success := setup }

/-- reload with data that OSQP rejects -/
example : ¬ Sound (trace true ([.loadSparse load1, .run (osqp1 true), .loadSparse load1] ++
    .run (osqp1 false) :: [])) :=
  C46_stale true _ [] (osqp1 false) rfl rfl (by decide +kernel) (by decide +kernel)

/-- **C46.**  The destructor releases every array that a member of the object points to. -/
theorem C46_members (ok : Bool) (cs : List Call) {s : Slot} (hs : s.owned = true) {b : Nat}
    (hb : (object ok cs).ptr s = some b) : Released (trace ok cs) b := by
  rw [trace_eq]
  exact destroy_released hs hb

/-- **C46.**  Everything that the last successful load allocates is released: during that load, by a later
call or by the destructor.  `pre` is what happened before the load, `post` what happened after it. -/
theorem C46_last_load (ok : Bool) (pre : List Call) {c : Call} {m : Op Bool} (post : List Call)
    (hc : c.load = some m) (hr : (m (object ok pre)).1 = true) (hp : ∀ d ∈ post, d.load = none) {b : Nat}
    {k : Kind} (h0 : HEv.alloc b k ∉ (object ok pre).tr)
    (h1 : HEv.alloc b k ∈ (object ok (pre ++ [c])).tr) :
    Released (trace ok (pre ++ c :: post)) b := by
  have hb : Bounded (object ok pre) :=
    (calls_any pre).bounded ((construct_built ok).any.bounded bounded_empty)
  have hl := Call.load_last hc hb hr
  rw [← Call.load_op hc] at hl
  have hn : (object ok pre).next ≤ b ∧ b < (c.op (object ok pre)).2.next := by
    rw [object_cons] at h1
    rcases c.any.allocs (object ok pre) h1 with h2 | h2
    · exact absurd h2 h0
    · exact h2
  rw [trace_eq, object_cons]
  exact (hl.calls hp).released hn.1 hn.2

/-- **C46.**  A fresh object that is loaded once, given options any number of times and run once leaks
nothing, unless the subsolver is the sparse qpOASES. -/
theorem C46_clean (ok : Bool) {c : Call} {m : Op Bool} (hc : c.load = some m)
    (hr : (m (object ok [])).1 = true) (os : List Bool) {r : Run} (hq : r.sel ≠ .qpSparse) (b : Nat)
    (k : Kind) (hb : HEv.alloc b k ∈ trace ok (c :: (os.map .setOptions ++ [.run r]))) :
    Released (trace ok (c :: (os.map .setOptions ++ [.run r]))) b := by
  have h0 : NL 0 [] Hp.empty := ⟨fun b h1 h2 => absurd h2 (not_lt.2 h1), by simp [Hp.empty], le_rfl⟩
  have h1 : NL 0 ctorSlots (object ok []) := construct_nb ok _ h0
  have h2 := Call.load_clean hc _ h1 hr
  rw [← Call.load_op hc] at h2
  have h3 := options_clean os _ h2
  have h4 := run_clean hq _ h3
  have e : object ok (c :: (os.map .setOptions ++ [.run r])) =
      (run r (calls (os.map .setOptions) (c.op (object ok [])).2).2).2 := by
    rw [← List.nil_append (c :: _), object_cons, calls_append, calls_cons]
    rfl
  have hlt : b < (object ok (c :: (os.map .setOptions ++ [.run r]))).next := by
    unfold trace at hb
    rcases (life_any ok _).allocs _ hb with h5 | h5
    · simp [Hp.empty] at h5
    · have h6 := h5.2
      rw [life_eq, destroy_next] at h6
      exact h6
  rw [trace_eq]
  rw [e] at hlt ⊢
  exact h4.released endSlots_owned hlt

example : (loadDense load1 (object true [])).1 = true := by decide +kernel
example : (loadSparse load1 (object true [])).1 = true := by decide +kernel
example : HEv.alloc 25 .arr ∈ trace true (.loadDense load1 :: ([true].map .setOptions ++ [.run {}])) := by
  decide +kernel

/-- members that every successful load overwrites -/
example : Call.must (.loadDense load1) = [.arr .Q, .arr .g, .arr .A, .arr .lbA, .arr .ubA, .arr .L,
    .arr .R, .arr .C, .arr .xk] := rfl

/-- **C46.**  A successful load leaks the arrays of the load before it: a block in one of the members that
the load sets is never released, whatever is called afterwards. -/
theorem C46_reload_leaks (ok : Bool) {pre : List Call} (hn : NoFailAfterSetup pre) {c : Call}
    {m : Op Bool} (post : List Call) (hc : c.load = some m) (hr : (m (object ok pre)).1 = true) {s : Slot}
    (hs : s ∈ c.must) {b : Nat} (hb : (object ok pre).ptr s = some b) :
    Leaked (trace ok (pre ++ c :: post)) b := by
  have h1 := Call.load_lost hc (object_inv hn) hr hs hb
  rw [← Call.load_op hc] at h1
  rw [trace_eq, object_cons]
  exact (destroy_built.lost ((calls_any post).lost h1)).alive

/-- **C46.**  A second run without a load in between leaks `g_tilde` of the first one. -/
theorem C46_rerun_leaks (ok : Bool) {pre : List Call} (hn : NoFailAfterSetup pre) {c : Run}
    (post : List Call) (hr : (chooseSolver c.sel (object ok pre)).1 = true) {b : Nat}
    (hb : (object ok pre).ptr (.arr .gTilde) = some b) :
    Leaked (trace ok (pre ++ .run c :: post)) b := by
  have h1 : Lost b ((Call.run c).op (object ok pre)).2 := run_lost (object_inv hn) hr hb
  rw [trace_eq, object_cons]
  exact (destroy_built.lost ((calls_any post).lost h1)).alive

/-- **C46.**  Every run with sparse qpOASES leaks memory that it allocated. -/
theorem C46_qpSparse_leaks (ok : Bool) {pre : List Call} (hn : NoFailAfterSetup pre) {c : Run}
    (post : List Call) (hc : c.sel = .qpSparse) (hs : (object ok pre).sparse = true) :
    ∃ b, (∀ k, HEv.alloc b k ∉ (object ok pre).tr) ∧ Leaked (trace ok (pre ++ .run c :: post)) b := by
  have hi : Inv All (object ok pre) := object_inv hn
  obtain ⟨b, h1, h2⟩ := run_qpSparse_lost hc hi hs
  refine ⟨b, fun k h3 => absurd (hi.fresh _ _ h3) (not_lt.2 h1), ?_⟩
  have h3 : Lost b ((Call.run c).op (object ok pre)).2 := h2
  rw [trace_eq, object_cons]
  exact (destroy_built.lost ((calls_any post).lost h3)).alive

/-- **C46.**  A run leaves the loaded problem alone: every pointer to problem data (all members set by a load except the box
bounds, which are moved, and the iterates) is the same after the run. -/
theorem C46_problem (ok : Bool) (pre : List Call) (c : Run) {s : Slot} {b : Nat}
    (hs : s ∈ [Slot.arr .Q, .arr .g, .arr .A, .arr .lbA, .arr .ubA, .arr .L, .arr .R, .arr .C, .arr .lbL, .arr .ubL, .arr .lbR,
      .arr .ubR] ∨ ∃ m q, s = .csc m q ∧ m ≠ .Qk) (hb : (object ok pre).ptr s = some b) :
    (object ok (pre ++ [.run c])).ptr s = some b := by
  rw [object_cons]
  have hp : s.isProb = true := by
    rcases hs with h | ⟨m, q, rfl, hm⟩
    · simp only [List.mem_cons, List.not_mem_nil, or_false] at h
      rcases h with rfl | rfl | rfl | rfl | rfl | rfl | rfl | rfl | rfl | rfl | rfl | rfl <;> rfl
    · cases m <;> first | rfl | exact absurd rfl hm
  exact ((run_keep c).notSet hp).ptr hb

/-- **C46.**  The arrays of the loaded problem are really used: a run that chooses a solver, solves its first QP and ends
successfully reads `g`, the bounds of the constraints and `Q`, `A`, `L`, `R`, `C` (of the mode).  By `C46_sound` none of them
has been released before. -/
theorem C46_uses (ok : Bool) (pre : List Call) (c : Run) (hr : (chooseSolver c.sel (object ok pre)).1 = true)
    (hf : c.first = true) (hc : c.success = true) {s : Slot} {b : Nat} (hb : (object ok pre).ptr s = some b)
    (hs : s ∈ [Slot.arr .g, .arr .lbA, .arr .ubA, .arr .L, .arr .R, .arr .C] ∨
      (∃ m q, s = .csc m q ∧ (m = .C ∨ m = .L ∨ m = .R)) ∨
      ((object ok pre).sparse = false ∧ (s = .arr .Q ∨ s = .arr .A)) ∨
      ((object ok pre).sparse = true ∧ ∃ m q, s = .csc m q ∧ (m = .Q ∨ m = .A))) :
    ∃ u, (object ok (pre ++ [.run c])).tr = (object ok pre).tr ++ u ∧ HEv.use b ∈ u := by
  rw [object_cons]
  change ∃ u, (run c (object ok pre)).2.tr = _ ∧ _
  have two : ∀ {s : Slot} {b : Nat}, (s ∈ [Slot.arr .g, .arr .lbA, .arr .ubA, .arr .L, .arr .R, .arr .C] ∨
      ∃ m q, s = .csc m q ∧ (m = .C ∨ m = .L ∨ m = .R)) → (object ok pre).ptr s = some b →
      ∃ u, (run c (object ok pre)).2.tr = (object ok pre).tr ++ u ∧ HEv.use b ∈ u := by
    intro s b h hb
    refine run_uses hr ?_ (afterInit_uses c hf hc h) hb
    rcases h with h | ⟨m, q, rfl, rfl | rfl | rfl⟩
    · simp only [List.mem_cons, List.not_mem_nil, or_false] at h
      rcases h with rfl | rfl | rfl | rfl | rfl | rfl <;> rfl
    all_goals rfl
  rcases hs with h | h | h
  · exact two (.inl h) hb
  · exact two (.inr h) hb
  · obtain ⟨u, h1, h2⟩ := chooseSolver_uses hr hb h
    have hk : Built Keep (afterInit c) := .bind (initRest_keep _) fun _ => .bind (arrs_keep _) fun _ =>
      .bind (csc_keep _) fun _ => solvePart_keep c
    obtain ⟨v, hv⟩ := hk.starts (chooseSolver c.sel (object ok pre)).2
    refine ⟨u ++ v, ?_, by simp [h2]⟩
    rw [run_eq, hr, if_pos rfl, hv, h1, List.append_assoc]

/-- **C46.**  Every later subproblem uses the vectors handed to the solver and the memory of the solver that was set up
before: with OSQP its workspace and the data it points to, with qpOASES all of its objects. -/
theorem C46_hot (c : Run) (h : Hp) {s : Slot} {b : Nat} (hb : h.ptr s = some b)
    (hs : s ∈ [Slot.arr .gk, .arr .lbA, .arr .ubA, .arr .lb, .arr .ub] ∨
      (c.sel = .osqp ∧ s ∈ [Slot.os .main .work, .os .main .data, .os .main .l, .os .main .u, .os .main .q, .os .main .settings]) ∨
      (c.sel ≠ .osqp ∧ ∃ f ∈ qoAll, s = .qo .main f)) :
    ∃ u, (hotSolve c h).2.tr = h.tr ++ u ∧ HEv.use b ∈ u := by
  have hot : Uses (hotSolve c) s := by
    unfold hotSolve
    rcases hs with hs | ⟨hc, hs⟩ | ⟨hc, f, hf, rfl⟩
    · have : ∃ a ∈ [Arr.gk, .lbA, .ubA, .lb, .ub], s = .arr a := by
        simp only [List.mem_cons, List.not_mem_nil, or_false] at hs
        rcases hs with rfl | rfl | rfl | rfl | rfl <;> exact ⟨_, by simp, rfl⟩
      obtain ⟨a, ha, rfl⟩ := this
      refine .left (A := Any) (.arrs ha) fun _ => ?_
      cases c.sel
      case osqp => exact .bind (.touch rfl) fun _ => .each fun _ _ => .touch rfl
      all_goals exact .each fun _ _ => .touch rfl
    · refine .right (arrs_not _ _) fun _ => ?_
      rw [hc]
      simp only [List.mem_cons, List.not_mem_nil, or_false] at hs
      rcases hs with rfl | hs
      · exact .left (A := Any) (.touch _) fun _ => .each fun _ _ => .touch rfl
      · refine .right (.touch rfl) fun _ => ?_
        rcases hs with rfl | rfl | rfl | rfl | rfl
        · exact .each (a := .data) (by simp) (.touch _) (fun _ => .touch rfl) (A := Any) fun _ => .touch rfl
        · exact .each (a := .l) (by simp) (.touch _) (fun _ => .touch rfl) (A := Any) fun _ => .touch rfl
        · exact .each (a := .u) (by simp) (.touch _) (fun _ => .touch rfl) (A := Any) fun _ => .touch rfl
        · exact .each (a := .q) (by simp) (.touch _) (fun _ => .touch rfl) (A := Any) fun _ => .touch rfl
        · exact .each (a := .settings) (by simp) (.touch _) (fun _ => .touch rfl) (A := Any) fun _ => .touch rfl
    · refine .right (arrs_not _ _) fun _ => ?_
      cases hsel : c.sel with
      | osqp => exact absurd hsel hc
      | _ => exact .each hf (.touch _) (fun _ => .touch rfl) (A := Any) fun _ => .touch rfl
  exact hot h b hb

/-- **C46.**  The dual guess is shifted for OSQP by means of a temporary array: the old array is copied before it is released,
the pointer then points to a new array, which is filled from the temporary one, and that is released.  No other pointer
changes. -/
theorem C46_guess (h : Hp) {b : Nat} (hb : h.ptr (.arr .yk) = some b) (ht : h.ptr (.loc .tmp) = none) :
    (shiftGuess h).2.tr = h.tr ++ [.alloc h.next .arr, .use b, .use h.next, .free b .arr, .alloc (h.next + 1) .arr, .use h.next,
      .use (h.next + 1), .free h.next .arr] ∧
    (shiftGuess h).2.ptr (.arr .yk) = some (h.next + 1) ∧
    ∀ s, s ≠ .arr .yk → (shiftGuess h).2.ptr s = h.ptr s := by
  have e1 : (Slot.arr .yk) ≠ .loc .tmp := by decide
  have e2 : (Slot.loc .tmp) ≠ .arr .yk := by decide
  unfold shiftGuess
  simp only [bind_apply, isSet, hb, when, Option.isSome_some, if_true, new, touch, renew, free, del, drop,
    Function.update_self, Function.update_of_ne e1, Function.update_of_ne e2]
  refine ⟨by simp, trivial, fun s hs => ?_⟩
  by_cases h1 : s = .loc .tmp
  · rw [h1, Function.update_self, ht]
  · rw [Function.update_of_ne h1, Function.update_of_ne hs, Function.update_of_ne h1]

/-- **C46.**  The end of a successful run works on the iterates and multipliers that were current at its beginning, and on
both complementarity matrices. -/
theorem C46_final (h : Hp) {s : Slot} {b : Nat} (hb : h.ptr s = some b)
    (hs : s ∈ [Slot.arr .xk, .arr .yk, .arr .ykA, .arr .L, .arr .R] ∨ ∃ m q, s = .csc m q ∧ (m = .L ∨ m = .R)) :
    ∃ u, (finish h).2.tr = h.tr ++ u ∧ HEv.use b ∈ u := by
  have fin : Uses finish s := by
    rcases hs with hs | ⟨m, q, rfl, rfl | rfl⟩
    · have : ∃ a ∈ [Arr.xk, .yk, .ykA, .L, .R], s = .arr a := by
        simp only [List.mem_cons, List.not_mem_nil, or_false] at hs
        rcases hs with rfl | rfl | rfl | rfl | rfl <;> exact ⟨_, by simp, rfl⟩
      obtain ⟨a, ha, rfl⟩ := this
      unfold finish
      have kL := csc_keep .L
      have kR := csc_keep .R
      have k0 : ∀ l : Loc, Built Keep (new (.loc l) .arr) := fun _ => .new rfl
      have k1 : ∀ l : Loc, Built Keep (touch (.loc l)) := fun _ => .touch rfl
      have k2 : ∀ l : Loc, Built Keep (del (.loc l) .arr) := fun _ => .del rfl
      refine .right (.new rfl) fun _ => .right (.touch rfl) fun _ => .left (A := Keep) (.arrs ha) fun _ => ?_
      built
    · exact finish_uses (.inr (.inr (.inl ⟨q, rfl⟩)))
    · exact finish_uses (.inr (.inr (.inr ⟨q, rfl⟩)))
  exact fin h b hb

/-- **C46.**  Setting the bounds of the linear constraints allocates two arrays and fills both. -/
theorem C46_bounds (h : Hp) :
    (newBounds h).2.tr = h.tr ++ [.alloc h.next .arr, .alloc (h.next + 1) .arr, .use h.next, .use (h.next + 1)] ∧
    (newBounds h).2.ptr (.arr .lbA) = some h.next ∧ (newBounds h).2.ptr (.arr .ubA) = some (h.next + 1) := by
  simp [newBounds, bind_apply, newA, new, touch, Function.update]

/-- **C46.**  Setting the complementarity bounds works on all four arrays of complementarity bounds (the new ones, where given)
and appends to both arrays of constraint bounds. -/
theorem C46_compBounds (c : Load) (h : Hp) {a : Arr} (ha : a ∈ [Arr.lbL, .ubL, .lbR, .ubR, .lbA, .ubA]) {b : Nat}
    (hb : (setCompBounds c h).2.ptr (.arr a) = some b) : ∃ u, (setCompBounds c h).2.tr = h.tr ++ u ∧ HEv.use b ∈ u := by
  have e : ∀ (l : List Arr) (h : Hp), (each (fun a => touch (.arr a)) l h).2.ptr = h.ptr := by
    intro l
    induction l with
    | nil => intro h; rfl
    | cons x l ih => intro h; rw [each, bind_apply, ih, touch_ptr]
  have k : ∀ (g : Bool) (x : Arr), Built Any (newIf g x) := fun g x => .when (.new rfl)
  obtain ⟨v, hv⟩ := (Built.bind (k c.lbL .lbL) fun _ => .bind (k c.ubL .ubL) fun _ => .bind (k c.lbR .lbR) fun _ => k c.ubR .ubR).starts h
  obtain ⟨u, h1, h2⟩ := Uses.arrs ha (newIf c.ubR .ubR (newIf c.lbR .lbR (newIf c.ubL .ubL (newIf c.lbL .lbL h).2).2).2).2 b (by
    simp only [setCompBounds, bind_apply, ret, e] at hb
    exact hb)
  refine ⟨v ++ u, ?_, by simp [h2]⟩
  simp only [bind_apply] at hv
  simp only [setCompBounds, bind_apply, ret, h1, hv, List.append_assoc]

/-- **C46.**  Setting the box bounds copies the loaded arrays, where given, to two new arrays. -/
theorem C46_boxes (h : Hp) {a b : Nat} (ha : h.ptr (.arr .lbTmp) = some a) (hb : h.ptr (.arr .ubTmp) = some b) :
    (setBoxes h).2.tr = h.tr ++ [.alloc h.next .arr, .use a, .use h.next, .alloc (h.next + 1) .arr, .use b, .use (h.next + 1)] ∧
    (setBoxes h).2.ptr (.arr .lb) = some h.next ∧ (setBoxes h).2.ptr (.arr .ub) = some (h.next + 1) := by
  simp [setBoxes, bind_apply, newA, new, touch, Function.update, ha, hb]

/-- **C46.**  Building the Hessian of the subproblems: in dense mode `Q` and `C` are read and `Qk` is filled; in sparse mode all
parts of `Q` and `C` are read, and `Qk` gets new arrays. -/
theorem C46_hessian (h : Hp) :
    (h.sparse = false → ∀ a ∈ [Arr.Q, .C, .Qk], ∀ b, h.ptr (.arr a) = some b → ∃ u, (setQk h).2.tr = h.tr ++ u ∧ HEv.use b ∈ u) ∧
    (h.sparse = true → (∀ m q b, m = Csc.Q ∨ m = .C → h.ptr (.csc m q) = some b → ∃ u, (setQk h).2.tr = h.tr ++ u ∧ HEv.use b ∈ u) ∧
      ∀ q, ∃ b, (setQk h).2.ptr (.csc .Qk q) = some b ∧ h.next ≤ b) := by
  refine ⟨fun hs a ha b hb => ?_, fun hs => ⟨fun m q b hm hb => ?_, fun q => ?_⟩⟩
  · have e : setQk h = each (fun a => touch (.arr a)) [.Q, .C, .Qk] h := by
      unfold setQk
      rw [bind_apply, isSparse_fst, hs]
      rfl
    rw [e]
    exact Uses.arrs ha h b hb
  · have e : setQk h = (do touchCsc .Q; touchCsc .C; newCsc .Qk) h := by
      unfold setQk
      rw [bind_apply, isSparse_fst, hs]
      rfl
    rw [e]
    have k : Built Any (newCsc .Qk) := newCsc_built fun _ => rfl
    rcases hm with rfl | rfl
    · exact Uses.left (A := Any) (.csc _ _) (fun _ => .bind (touchCsc_built _ fun _ => rfl) fun _ => k) h b hb
    · exact Uses.right (touchCsc_not _ _) (fun _ => Uses.left (A := Any) (.csc _ _) fun _ => k) h b hb
  · have e : setQk h = (do touchCsc .Q; touchCsc .C; newCsc .Qk) h := by
      unfold setQk
      rw [bind_apply, isSparse_fst, hs]
      rfl
    have tn : ∀ (s : Slot) (h : Hp), (touch s h).2.next = h.next := fun s h => by unfold touch; split <;> rfl
    rw [e]
    cases q <;> simp [bind_apply, newCsc, touchCsc, each, new, Function.update, ret, tn] <;> omega

/-- **C46.**  Switching to sparse mode always succeeds; it leaves the object in sparse mode, and if it was in dense mode
before, with all sparse matrices but `Qk` and no dense ones. -/
theorem C46_toSparse (h : Hp) : (switchToSparse h).1 = true ∧ (switchToSparse h).2.sparse = true ∧
    (h.sparse = false → (∀ m q, m ≠ Csc.Qk → ((switchToSparse h).2.ptr (.csc m q)).isSome = true) ∧
      ∀ a ∈ [Arr.Q, .A, .L, .R, .C], (switchToSparse h).2.ptr (.arr a) = none) := by
  cases hs : h.sparse with
  | true =>
    refine ⟨?_, ?_, by simp⟩
    · unfold switchToSparse; rw [bind_apply, isSparse_fst, hs]; rfl
    · rw [switchToSparse_id hs, hs]
  | false =>
    refine ⟨?_, ?_, fun _ => ⟨?_, ?_⟩⟩
    · unfold switchToSparse; rw [bind_apply, isSparse_fst, hs]; rfl
    · unfold switchToSparse; rw [bind_apply, isSparse_fst, hs]; rfl
    · intro m q hm
      rw [switchToSparse_steps hs]
      cases m <;> cases q <;> first | exact absurd rfl hm |
        simp [steps, toSparseSteps, each, Step.op, bind_apply, touch_ptr, free_ptr, new, del, drop, setSparse, ret, Function.update]
    · intro a ha
      rw [switchToSparse_steps hs]
      simp only [List.mem_cons, List.not_mem_nil, or_false] at ha
      rcases ha with rfl | rfl | rfl | rfl | rfl <;>
        simp [steps, toSparseSteps, each, Step.op, bind_apply, touch_ptr, free_ptr, new, del, drop, setSparse, ret, Function.update]


/-- **C46.**  Switching to dense mode succeeds exactly if nothing has to be done or all conversions succeed.  It leaves the
object in dense mode in this case and in sparse mode otherwise.  After success all dense matrices are there and, if the
object was in sparse mode before, no sparse ones but `Qk`; after failure the sparse ones are those of before. -/
theorem C46_toDense (ok : Arr → Bool) (h : Hp) :
    (switchToDense ok h).1 = (!h.sparse || (ok .Q && ok .A && ok .L && ok .R && ok .C)) ∧
    (switchToDense ok h).2.sparse = !(switchToDense ok h).1 ∧
    (h.sparse = true → ((switchToDense ok h).1 = true →
        (∀ a ∈ [Arr.Q, .A, .L, .R, .C], ((switchToDense ok h).2.ptr (.arr a)).isSome = true) ∧
        ∀ m q, m ≠ Csc.Qk → (switchToDense ok h).2.ptr (.csc m q) = none) ∧
      ((switchToDense ok h).1 = false → ∀ m q, (switchToDense ok h).2.ptr (.csc m q) = h.ptr (.csc m q))) := by
  cases hs : h.sparse with
  | false =>
    have : switchToDense ok h = (true, h) := by
      unfold switchToDense; rw [bind_apply, isSparse_fst, hs]; rfl
    rw [this]
    simp [hs]
  | true =>
    have e : ∀ (b : Bool) (a : Arr) (m : Csc) (h : Hp), (toDns b a m h).2.sparse = h.sparse ∧
        (∀ m' q, (toDns b a m h).2.ptr (.csc m' q) = h.ptr (.csc m' q)) ∧
        (∀ a', a' ≠ a → (toDns b a m h).2.ptr (.arr a') = h.ptr (.arr a')) ∧
        (b = true → ((toDns b a m h).2.ptr (.arr a)).isSome = true) := by
      intro b a m h
      have e1 : ((touchCsc m) h).2.sparse = h.sparse ∧ ((touchCsc m) h).2.ptr = h.ptr := by
        simp [touchCsc, each, bind_apply, touch_ptr, touch_sparse, ret]
      cases b <;> refine ⟨?_, fun m' q => ?_, fun a' ha => ?_, fun hb => ?_⟩ <;>
        simp_all [toDns, bind_apply, newA, new, touch_ptr, touch_sparse, drop, when, ret, Function.update]
    have all : (toDnsAll ok h).2.sparse = true ∧ (∀ m q, (toDnsAll ok h).2.ptr (.csc m q) = h.ptr (.csc m q)) ∧
        ((ok .Q && ok .A && ok .L && ok .R && ok .C) = true →
          ∀ a ∈ [Arr.Q, .A, .L, .R, .C], ((toDnsAll ok h).2.ptr (.arr a)).isSome = true) := by
      unfold toDnsAll
      simp only [bind_apply]
      refine ⟨?_, fun m q => ?_, fun hok a ha => ?_⟩
      · simp only [(e _ _ _ _).1, hs]
      · simp only [(e _ _ _ _).2.1]
      · simp only [Bool.and_eq_true] at hok
        obtain ⟨⟨⟨⟨h1, h2⟩, h3⟩, h4⟩, h5⟩ := hok
        simp only [List.mem_cons, List.not_mem_nil, or_false] at ha
        rcases ha with rfl | rfl | rfl | rfl | rfl
        · rw [(e _ _ _ _).2.2.1 _ (by decide), (e _ _ _ _).2.2.1 _ (by decide), (e _ _ _ _).2.2.1 _ (by decide),
            (e _ _ _ _).2.2.1 _ (by decide), (e _ _ _ _).2.2.2 h1]
        · rw [(e _ _ _ _).2.2.1 _ (by decide), (e _ _ _ _).2.2.1 _ (by decide), (e _ _ _ _).2.2.1 _ (by decide),
            (e _ _ _ _).2.2.2 h2]
        · rw [(e _ _ _ _).2.2.1 _ (by decide), (e _ _ _ _).2.2.1 _ (by decide), (e _ _ _ _).2.2.2 h3]
        · rw [(e _ _ _ _).2.2.1 _ (by decide), (e _ _ _ _).2.2.2 h4]
        · rw [(e _ _ _ _).2.2.2 h5]
    have code : (switchToDense ok h).1 = (ok .Q && ok .A && ok .L && ok .R && ok .C) := by
      unfold switchToDense
      rw [bind_apply, isSparse_fst, isSparse_snd, hs]
      simp only [if_true, bind_apply]
      split
      · rename_i h'
        rw [h']
        rfl
      · rename_i h'
        rw [Bool.not_eq_true] at h'
        rw [h']
        rfl
    rw [code, switchToDense_eq ok hs]
    cases hok : (ok .Q && ok .A && ok .L && ok .R && ok .C) with
    | false =>
      rw [if_neg (by simp)]
      exact ⟨rfl, all.1, fun _ => ⟨by simp, fun _ => all.2.1⟩⟩
    | true =>
      rw [if_pos rfl]
      refine ⟨rfl, steps_sparse _, fun _ => ⟨fun _ => ⟨fun a ha => ?_, fun m q hm => ?_⟩, by simp⟩⟩
      · have k := all.2.2 hok a ha
        have k2 : (steps toDenseSteps (toDnsAll ok h).2).2.ptr (.arr a) = (toDnsAll ok h).2.ptr (.arr a) := by
          generalize (toDnsAll ok h).2 = h'
          simp [steps, toDenseSteps, each, Step.op, bind_apply, free_ptr, del, drop, setSparse, ret, Function.update]
        rw [k2]
        exact k
      · generalize (toDnsAll ok h).2 = h'
        cases m <;> cases q <;> first | exact absurd rfl hm |
          simp [steps, toDenseSteps, each, Step.op, bind_apply, free_ptr, del, drop, setSparse, ret, Function.update]

/-! ## non-vacuity -/

/-- both kinds of switches, and a switch with a failing conversion -/
example : (object true [.loadDense load1]).sparse = false ∧ (switchToSparse (object true [.loadDense load1])).1 = true ∧
    ((switchToSparse (object true [.loadDense load1])).2.ptr (.csc .A .x)).isSome = true ∧
    (switchToDense (fun _ => true) (object true [.loadSparse load1])).1 = true ∧
    (switchToDense (fun a => a != .A) (object true [.loadSparse load1])).1 = false := by decide +kernel

/-- a run of a loaded problem, dense and sparse -/
example : (object true [.loadDense load1]).ptr (.arr .R) = some 16 ∧ (object true [.loadDense load1]).sparse = false ∧
    (chooseSolver .qpDense (object true [.loadDense load1])).1 = true ∧
    ((object true [.loadSparse load1]).ptr (.csc .R .x)).isSome = true ∧
    (chooseSolver .osqp (object true [.loadSparse load1])).1 = true := by decide +kernel

/-- calls that never use OSQP satisfy the condition of `C46_sound` -/
example (cs : List Call) (h : ∀ c ∈ cs, c.fails = false) : NoFailAfterSetup cs := by
  intro pre c post e hf
  have := h c (by rw [e]; simp)
  rw [this] at hf
  simp at hf

/-- so do calls in which every setup of OSQP succeeds -/
example : NoFailAfterSetup [.loadSparse load1, .run (osqp1 true), .toDense fun _ => true, .run {},
    .toSparse, .run (osqp1 true)] := by
  intro pre c post e hf
  have h : ∀ c ∈ [Call.loadSparse load1, .run (osqp1 true), .toDense fun _ => true, .run {},
    .toSparse, .run (osqp1 true)], c.fails = false := by simp [Call.fails, osqp1]
  rw [h c (by rw [e]; simp)] at hf
  simp at hf

/-- loaded twice: the first Hessian is leaked -/
example : Leaked (trace true ([.loadDense load1] ++ .loadDense load1 :: [])) 10 :=
  C46_reload_leaks true (pre := [.loadDense load1]) (by
    intro pre c post e hf
    have h : ∀ c ∈ [Call.loadDense load1], c.fails = false := by simp [Call.fails]
    rw [h c (by rw [e]; simp)] at hf
    simp at hf) [] (c := .loadDense load1) rfl (by decide +kernel) (s := .arr .Q) (by decide)
    (by decide +kernel)

/-- run twice -/
example : ∃ b, (object true [.loadDense load1, .run {}]).ptr (.arr .gTilde) = some b ∧
    (chooseSolver .qpDense (object true [.loadDense load1, .run {}])).1 = true :=
  ⟨29, by decide +kernel, by decide +kernel⟩

/-- iterates and multipliers after a run -/
example : ∀ a ∈ [Arr.xk, .yk, .ykA], ((object true [.loadDense load1, .run {}]).ptr (.arr a)).isSome = true := by decide +kernel

/-- ready for a sparse run -/
example : (object true [.loadSparse load1]).sparse = true := by decide +kernel

/-! ## C54: copies of a problem object -/

/-- **C54.**  An object may not be copied: if any array member of it is not null, the end of the object
and of its copy releases that array twice. -/
theorem C54_copy (ok : Bool) (cs : List Call) {s : Slot} (hs : (∃ a, s = .arr a) ∨ ∃ m q, s = .csc m q)
    (hb : ((object ok cs).ptr s).isSome = true) : ¬ Sound (destroyBoth (object ok cs)).2.tr := by
  obtain ⟨b, hb⟩ := Option.isSome_iff_exists.1 hb
  rcases hs with ⟨a, rfl⟩ | ⟨m, q, rfl⟩
  · exact destroyBoth_unsound rfl hb hb
  · exact destroyBoth_unsound rfl hb hb

/-- **C54.**  In particular a copy of any object that was constructed with valid dimensions. -/
theorem C54_fresh : ¬ Sound (destroyBoth (object true [])).2.tr :=
  C54_copy true [] (s := .arr .Qk) (.inl ⟨_, rfl⟩) (by decide +kernel)

/-- the objects of `C54_copy` are destroyed correctly if they are not copied -/
example : Sound (destroy (object true [])).2.tr := by
  rw [← trace_eq]
  exact C46_sound true [] (by simp [NoFailAfterSetup])

end LCQ.Mem
