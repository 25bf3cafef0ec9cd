import Mathlib.Tactic.Push
import Verif.Lemmas.MemoryOps

/-!
# Calls on a problem object and its end
-/

namespace LCQ.Mem

/-! ## calls -/

theorem Call.op_use {c : Call} (hc : ∀ r, c = .run r → r.sel ≠ .osqp) : Built SafeUse c.op := by
  cases c with
  | loadDense c => exact (loadDense_built c).load.use.void
  | loadSparse c => exact (loadSparse_built c).load.use.void
  | loadFiles c => exact (loadFiles_built c).load.use.void
  | setOptions b => exact (setOptions_built b).run.use
  | run r => exact (run_qp_built (hc r rfl)).useRun
  | toSparse => exact switchToSparse_built.use.void
  | toDense ok => exact (switchToDense_built ok).use.void

theorem run_osqp_nowork {c : Run} (hc : c.sel = .osqp) (hs : c.setup = false) {h : Hp}
    (hw : h.ptr (.os .main .work) = none) : (run c h).2.ptr (.os .main .work) = none := by
  rw [run_eq, hc]
  obtain ⟨m, hm, e | e⟩ := chooseOsqp h
  · rw [e]
    exact hm.run.use.nowork hw
  · rw [e]
    simp only [if_true]
    rw [afterInit_osqp hc]
    refine (afterSolve_built c).useRun.nowork ?_
    refine Built.nowork (.touch rfl) ?_
    rw [hs]
    have h3 : (buildOsqp (m h).2).2.ptr (.os .main .work) = none := by
      rw [buildOsqp_eq]
      refine osqpTail_built.run.use.nowork ?_
      have h4 := osqpHead_built.run.use.nowork (hm.run.use.nowork hw)
      simp only [Mem.free, h4]
    exact (osLook_built _).run.use.nowork ((osData_built _).run.use.nowork
      ((beforeSolve_built c).run.use.nowork h3))

/-- does the call set up an OSQP workspace -/
def Call.sets : Call → Bool
  | .run c => c.sel == .osqp && c.setup
  | _ => false

/-- does the call use OSQP and fail to set it up -/
def Call.fails : Call → Bool
  | .run c => c.sel == .osqp && !c.setup
  | _ => false

theorem Call.inv (c : Call) {h : Hp} (hi : Inv All h)
    (hs : c.fails = true → h.ptr (.os .main .work) = none) : Inv All (c.op h).2 := by
  by_cases hc : ∀ r, c = .run r → r.sel ≠ .osqp
  · exact (Call.op_use hc).invAll hi
  · push Not at hc
    obtain ⟨r, rfl, hr⟩ := hc
    refine run_osqp_inv hr hi fun h1 => hs ?_
    simp [Call.fails, hr, h1]

theorem Call.nowork (c : Call) {h : Hp} (hs : c.sets = false)
    (hw : h.ptr (.os .main .work) = none) : (c.op h).2.ptr (.os .main .work) = none := by
  by_cases hc : ∀ r, c = .run r → r.sel ≠ .osqp
  · exact (Call.op_use hc).nowork hw
  · push Not at hc
    obtain ⟨r, rfl, hr⟩ := hc
    refine run_osqp_nowork hr ?_ hw
    simpa [Call.sets, hr] using hs

/-- no OSQP setup fails after an earlier one succeeded; `had`: one succeeded before -/
def NoStale : Bool → List Call → Prop
  | _, [] => True
  | had, c :: r => (c.fails = true → had = false) ∧ NoStale (had || c.sets) r

theorem calls_cons (c : Call) (r : List Call) (h : Hp) :
    calls (c :: r) h = calls r (c.op h).2 := by
  unfold calls
  rw [each, bind_apply]

theorem calls_inv {cs : List Call} : ∀ {had : Bool} {h : Hp}, NoStale had cs → Inv All h →
    (had = false → h.ptr (.os .main .work) = none) → Inv All (calls cs h).2 := by
  induction cs with
  | nil => exact fun _ hi _ => hi
  | cons c r ih =>
    intro had h hn hi hw
    rw [calls_cons]
    refine ih hn.2 (c.inv hi fun hf => hw (hn.1 hf)) fun ho => ?_
    rw [Bool.or_eq_false_iff] at ho
    exact c.nowork ho.2 (hw ho.1)

theorem inv_empty : Inv All Hp.empty where
  sound := sound_nil
  fresh := by simp [Hp.empty]
  good := by simp [Hp.empty]
  known := by simp [Hp.empty]
  freed := by simp [Hp.empty]
  inj := by simp [Hp.empty]
  tmp := by simp [Hp.empty]

theorem construct_inv (ok : Bool) : Inv All (construct ok Hp.empty).2 :=
  (construct_built ok).use.invAll inv_empty

theorem life_eq (ok : Bool) (cs : List Call) (h : Hp) :
    life ok cs h = destroy (calls cs (construct ok h).2).2 := by
  unfold life
  rw [bind_apply, bind_apply]

/-! ## what the end of the object releases -/

/-- straight-line code -/
def steps (l : List Step) : Op Unit := each Step.op l

theorem each_append {β : Type} (f : β → Op Unit) (l r : List β) (h : Hp) :
    each f (l ++ r) h = each f r (each f l h).2 := by
  induction l generalizing h with
  | nil => rfl
  | cons a l ih =>
    rw [List.cons_append, each, bind_apply, each, bind_apply, ih]

theorem each_map {β γ : Type} (f : β → Op Unit) (g : γ → β) (l : List γ) :
    each f (l.map g) = each (fun c => f (g c)) l := by
  funext h
  induction l generalizing h with
  | nil => rfl
  | cons a l ih =>
    rw [List.map_cons, each, bind_apply, each, bind_apply, ih]

theorem each_flatMap {β γ : Type} (f : β → Op Unit) (g : γ → List β) (l : List γ) (h : Hp) :
    each f (l.flatMap g) h = each (fun c => each f (g c)) l h := by
  induction l generalizing h with
  | nil => rfl
  | cons a l ih =>
    rw [List.flatMap_cons, each_append, each, bind_apply, ih]

/-- the pointer changes -/
def Step.sets (s : Slot) : Step → Bool
  | .new t _ => t == s
  | .drop t => t == s
  | .del t _ => t == s
  | .renew t _ => t == s
  | .newIfNull t _ => t == s
  | _ => false

/-- the block of the pointer is released -/
def Step.frees (s : Slot) : Step → Bool
  | .free t _ => t == s
  | .del t _ => t == s
  | .renew t _ => t == s
  | _ => false

theorem free_ptr (s : Slot) (k : Kind) (h : Hp) : (Mem.free s k h).2.ptr = h.ptr := by
  unfold Mem.free
  cases h.ptr s <;> rfl

theorem Step.ptr_of {s : Slot} {st : Step} (hs : st.sets s = false) (h : Hp) :
    (st.op h).2.ptr s = h.ptr s := by
  cases st with
  | new t k =>
    simp [Step.sets] at hs
    simp [Step.op, Mem.new, Ne.symm hs]
  | free t k => exact congrFun (free_ptr t k h) s
  | drop t =>
    simp [Step.sets] at hs
    simp [Step.op, Mem.drop, Ne.symm hs]
  | del t k =>
    simp [Step.sets] at hs
    show Function.update (Mem.free t k h).2.ptr t none s = h.ptr s
    rw [free_ptr]
    simp [Ne.symm hs]
  | renew t k =>
    simp [Step.sets] at hs
    show Function.update (Mem.free t k h).2.ptr t _ s = h.ptr s
    rw [free_ptr]
    simp [Ne.symm hs]
  | newIfNull t k =>
    simp [Step.sets] at hs
    show (Mem.newIfNull t k h).2.ptr s = h.ptr s
    unfold Mem.newIfNull
    split
    · simp [Mem.new, Ne.symm hs]
    · rfl
  | touch t =>
    show (Mem.touch t h).2.ptr s = h.ptr s
    unfold Mem.touch
    cases h.ptr t <;> rfl
  | setSparse b => rfl

theorem free_released {s : Slot} {k : Kind} {h : Hp} {b : Nat} (hb : h.ptr s = some b) :
    Released (Mem.free s k h).2.tr b := by
  unfold Mem.free
  rw [hb]
  exact ⟨k, by simp⟩

theorem Step.released {s : Slot} {st : Step} (hs : st.frees s = true) {h : Hp} {b : Nat}
    (hb : h.ptr s = some b) : Released (st.op h).2.tr b := by
  cases st with
  | free t k =>
    simp [Step.frees] at hs
    subst hs
    exact free_released hb
  | del t k =>
    simp [Step.frees] at hs
    subst hs
    exact free_released hb
  | renew t k =>
    simp [Step.frees] at hs
    subst hs
    exact (free_released hb).mono ⟨[_], rfl⟩
  | new t k => simp [Step.frees] at hs
  | drop t => simp [Step.frees] at hs
  | newIfNull t k => simp [Step.frees] at hs
  | touch t => simp [Step.frees] at hs
  | setSparse b => simp [Step.frees] at hs

/-- the first step that changes the pointer or releases its block is a release -/
def frees (s : Slot) : List Step → Bool
  | [] => false
  | st :: r => st.frees s || (!st.sets s && frees s r)

theorem steps_built (l : List Step) : Built Any (steps l) := .each fun st _ => .step st rfl

theorem steps_released {s : Slot} {b : Nat} : ∀ {l : List Step}, frees s l = true → ∀ {h : Hp},
    h.ptr s = some b → Released (steps l h).2.tr b := by
  intro l
  induction l with
  | nil => simp [frees]
  | cons st r ih =>
    intro hf h hb
    rw [frees, Bool.or_eq_true_iff, Bool.and_eq_true_iff, Bool.not_eq_true'] at hf
    show Released (each Step.op (st :: r) h).2.tr b
    rw [each, bind_apply]
    rcases hf with hf | hf
    · exact (Step.released hf hb).mono ((steps_built r).starts _)
    · exact ih hf.2 (by rw [Step.ptr_of hf.1, hb])

/-- the destructor as straight-line code -/
def destroySteps : List Step :=
  clearArrs.map (fun a => .del (.arr a) .arr) ++
  [Csc.C, .A, .Q, .Qk, .L, .R].flatMap (fun m =>
    [Part.p, .i, .x, .s].map fun q => .del (.csc m q) .c) ++
  [.free (.os .main .work) .c, .touch (.os .main .data)] ++
  [Os.l, .u, .q, .data].map (fun f => .del (.os .main f) .c) ++
  [Part.p, .i, .x, .s].map (fun q => .del (.os .main (.Q q)) .c) ++
  [Part.p, .i, .x, .s].map (fun q => .del (.os .main (.A q)) .c) ++
  [.del (.os .main .settings) .c] ++
  osAll.map (fun f => .drop (.os .main f)) ++
  [Qo.Q, .A, .Qi, .Qp, .Qx, .Ax, .Ap, .Ax].map (fun f => .del (.qo .main f) .arr) ++
  [Qo.Qs, .As].map (fun f => .del (.qo .main f) .obj) ++
  qoAll.map (fun f => .drop (.qo .main f)) ++
  [.del .opt .c]

theorem step_del (s : Slot) (k : Kind) : (Step.del s k).op = del s k := rfl
theorem step_drop (s : Slot) : (Step.drop s).op = Mem.drop s := rfl
theorem step_free (s : Slot) (k : Kind) : (Step.free s k).op = Mem.free s k := rfl
theorem step_new (s : Slot) (k : Kind) : (Step.new s k).op = Mem.new s k := rfl
theorem step_touch (s : Slot) : (Step.touch s).op = Mem.touch s := rfl

theorem each_two {β : Type} (f : β → Op Unit) (a b : β) (h : Hp) :
    each f [a, b] h = f b (f a h).2 := by
  rw [each, bind_apply, each, bind_apply, each]
  rfl

theorem each_one {β : Type} (f : β → Op Unit) (a : β) (h : Hp) : each f [a] h = f a h := by
  rw [each, bind_apply, each]
  rfl

theorem destroy_steps (h : Hp) : destroy h = steps destroySteps h := by
  unfold steps destroySteps
  simp only [each_append, each_map, each_flatMap, each_one, each_two, step_del, step_drop, step_free,
    step_touch]
  rw [destroy, bind_apply, bind_apply, subEnd, bind_apply, osEnd, bind_apply, osClear_eq, bind_apply,
    osRest, bind_apply, bind_apply, bind_apply, bind_apply, qoEnd, bind_apply, qoClear, bind_apply,
    clear, bind_apply]
  have e1 : delA = fun a => del (.arr a) .arr := rfl
  have e2 : delCsc = fun m => each (fun q => del (.csc m q) .c) [.p, .i, .x, .s] := rfl
  rw [e1, e2]
  unfold osDelMat
  rw [each_two (fun f => del (.qo .main f) .obj)]

/-- what the destructor releases -/
def Slot.owned : Slot → Bool
  | .arr _ => true
  | .csc _ _ => true
  | .opt => true
  | .qo .main .Ai => false
  | .qo .main _ => true
  | .os .main _ => true
  | _ => false

theorem frees_owned {s : Slot} (hs : s.owned = true) : frees s destroySteps = true := by
  cases s with
  | arr a => cases a <;> decide +kernel
  | csc m q => cases m <;> cases q <;> decide +kernel
  | opt => decide +kernel
  | qo w f => cases w <;> cases f <;> first | (simp [Slot.owned] at hs; done) | decide +kernel
  | os w f =>
    cases w
    · cases f with
      | Q q => cases q <;> decide +kernel
      | A q => cases q <;> decide +kernel
      | _ => decide +kernel
    all_goals simp [Slot.owned] at hs
  | loc l => simp [Slot.owned] at hs

theorem destroy_released {s : Slot} (hs : s.owned = true) {h : Hp} {b : Nat}
    (hb : h.ptr s = some b) : Released (destroy h).2.tr b := by
  rw [destroy_steps]
  exact steps_released (frees_owned hs) hb

theorem destroy_built : Built Any destroy := by
  have : destroy = steps destroySteps := funext destroy_steps
  rw [this]
  exact steps_built _

end LCQ.Mem
