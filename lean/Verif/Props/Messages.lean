import Verif.Lemmas.Interfaces
import Verif.Props.Files

/-!
# C42: the output of loading

What loading prints: nothing on success, and the message of the returned code, once, on failure.
-/

namespace LCQ

variable {α : Type} [Scalar α]

/-- Spec: the output after a call that returned `r` is the output before, followed by the message
of `r` if `r` is an error. -/
def Reports (before : List (Ev α)) (r : RV) (after : List (Ev α)) : Prop :=
  (r = .successfulReturn → after = before) ∧ (r ≠ .successfulReturn → after = before ++ [.msg r])

theorem reports_fail {r : RV} (hr : r ≠ .successfulReturn) {o : Obj α} {out : List (Ev α)} (ho : o.s.out = out) {q : RV × Obj α}
    (h : failWith r o = .ok q) : Reports out q.1 q.2.s.out := by
  rw [failWith] at h
  injection h with h
  rw [← h]
  exact ⟨fun k => absurd k hr, fun _ => by simp [St.say, ho]⟩

theorem reports_data {m : M (RV × Data α)} {s : St α} {k : Data α → M (RV × Obj α)} {q : RV × Obj α}
    (hk : ∀ d, k d = .ok q → Reports s.out q.1 q.2.s.out) (h : thenData m s k = .ok q) : Reports s.out q.1 q.2.s.out := by
  rw [thenData, bind_eq_ok] at h
  obtain ⟨r, _, h⟩ := h
  split at h
  · rename_i hr
    exact reports_fail hr rfl h
  · exact hk _ h

theorem reports_guess {e : Env α} {d : Data α} {s : St α} {x y : Option (List α)} {d' : Data α} {k : St α → M (RV × Obj α)}
    {q : RV × Obj α} (hk : ∀ s' : St α, s'.out = s.out → k s' = .ok q → Reports s.out q.1 q.2.s.out)
    (h : thenSt (setInitialGuess e d s x y) d' k = .ok q) : Reports s.out q.1 q.2.s.out := by
  rw [thenSt, bind_eq_ok] at h
  obtain ⟨r, h1, h⟩ := h
  obtain ⟨u, v, hs⟩ := setInitialGuess_keep h1
  have ho : r.2.out = s.out := by rw [hs]
  split at h
  · rename_i hr
    exact reports_fail hr ho h
  · exact hk _ ho h

theorem reports_done {d : Data α} {s : St α} {out : List (Ev α)} (ho : s.out = out) {q : RV × Obj α}
    (h : (.ok (.successfulReturn, ({ d := d, s := s } : Obj α)) : M (RV × Obj α)) = .ok q) : Reports out q.1 q.2.s.out := by
  injection h with h
  rw [← h]
  exact ⟨fun _ => ho, fun k => absurd rfl k⟩

theorem reports_read {τ : Type} {m : M (RV × τ)} {o : Obj α} {k : τ → M (RV × Obj α)} {q : RV × Obj α}
    (hk : ∀ t, k t = .ok q → Reports o.s.out q.1 q.2.s.out) (h : thenRead m o k = .ok q) : Reports o.s.out q.1 q.2.s.out := by
  rw [thenRead, bind_eq_ok] at h
  obtain ⟨r, _, h⟩ := h
  split at h
  · rename_i hr
    exact reports_fail hr rfl h
  · exact hk _ h

/-- C42 (any arithmetic, any arguments): loading from dense arrays prints exactly the message of the
returned error, and nothing on success. -/
theorem C42_loadDense {e : Env α} {o o' : Obj α} {a : DenseArgs α} {r : RV} (h : loadDense e o a = .ok (r, o')) :
    Reports o.s.out r o'.s.out := by
  rw [loadDense, bind_eq_ok] at h
  obtain ⟨n, _, h⟩ := h
  split at h
  · exact reports_fail (by decide) rfl h
  · refine reports_data (fun d h => reports_data (fun d h => ?_) h) h
    rw [bind_eq_ok] at h
    obtain ⟨d, _, h⟩ := h
    exact reports_data (fun d h => reports_data (fun d h => reports_guess (fun s hs h => reports_done hs h) h) h) h

/-- C42 (any arithmetic, any arguments): the same for loading sparse matrices. -/
theorem C42_loadSparse {e : Env α} {o o' : Obj α} {a : SparseArgs α} {r : RV} (h : loadSparse e o a = .ok (r, o')) :
    Reports o.s.out r o'.s.out := by
  rw [loadSparse] at h
  refine reports_data (fun d h => reports_data (fun d h => reports_data (fun d h => reports_data (fun d h =>
    reports_guess (fun s hs h => ?_) h) h) h) h) h
  rw [bind_eq_ok] at h
  obtain ⟨d, _, h⟩ := h
  exact reports_done hs h

/-- C42 (any arithmetic, any files): the same for loading from files. -/
theorem C42_loadFiles {e : Env α} {o o' : Obj α} {a : FileArgs α} {r : RV} (h : loadFiles e o a = .ok (r, o')) :
    Reports o.s.out r o'.s.out := by
  rw [loadFiles, bind_eq_ok] at h
  obtain ⟨n, _, h⟩ := h
  iterate 15 refine reports_read (fun _ h => ?_) h
  rw [loadRead] at h
  refine reports_data (fun d h => reports_data (fun d h => ?_) h) h
  rw [bind_eq_ok] at h
  obtain ⟨d, _, h⟩ := h
  exact reports_data (fun d h => reports_data (fun d h => reports_guess (fun s hs h => reports_done hs h) h) h) h

namespace Ex

/-- success prints nothing -/
example : ∃ o', loadDense env obj0 args = .ok (.successfulReturn, o') ∧ o'.s.out = obj0.s.out := by
  have h : (loadDense env obj0 args).map (·.1) = .ok .successfulReturn := by decide +kernel
  cases k : loadDense env obj0 args with
  | error f => rw [k] at h; cases h
  | ok p =>
    obtain ⟨r, o'⟩ := p
    rw [k] at h
    injection h with h
    cases h
    exact ⟨o', rfl, (C42_loadDense k).1 rfl⟩

/-- a missing linear term prints its message -/
example : ∃ o', loadDense env obj0 { args with g := none } = .ok (.invalidObjectiveLinearTerm, o') ∧
    o'.s.out = obj0.s.out ++ [.msg .invalidObjectiveLinearTerm] := by
  have h : (loadDense env obj0 { args with g := none }).map (·.1) = .ok .invalidObjectiveLinearTerm := by decide +kernel
  cases k : loadDense env obj0 { args with g := none } with
  | error f => rw [k] at h; cases h
  | ok p =>
    obtain ⟨r, o'⟩ := p
    rw [k] at h
    injection h with h
    cases h
    exact ⟨o', rfl, (C42_loadDense k).2 (by decide)⟩

/-- an unreadable file prints its message -/
example : ∃ o', loadFiles env obj0 { fargs with g := some none } = .ok (.unableToReadFile, o') ∧
    o'.s.out = obj0.s.out ++ [.msg .unableToReadFile] := by
  have h : (loadFiles env obj0 { fargs with g := some none }).map (·.1) = .ok .unableToReadFile := by decide +kernel
  cases k : loadFiles env obj0 { fargs with g := some none } with
  | error f => rw [k] at h; cases h
  | ok p =>
    obtain ⟨r, o'⟩ := p
    rw [k] at h
    injection h with h
    cases h
    exact ⟨o', rfl, (C42_loadFiles k).2 (by decide)⟩

end Ex
end LCQ
