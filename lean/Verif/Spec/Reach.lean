import Verif.Model.Solver

/-!
# States of a run (specification)
-/

namespace LCQ
open Scalar

variable {α : Type} [Scalar α]

/-- states at the head of the main loop that is entered with `s0` -/
inductive Reach (e : Env α) (d : Data α) (s0 : St α) : St α → Prop
  | start : Reach e d s0 s0
  | pass {s s' : St α} : Reach e d s0 s → pass e d s = .ok (.inl s') → Reach e d s0 s'

/-- a run of `o` enters its main loop with data `d` and state `s0` -/
def Enters (e : Env α) (o : Obj α) (d : Data α) (s0 : St α) : Prop :=
  ∃ i, initializeSolver e o = .ok i ∧ i.1 = .successfulReturn ∧ d = i.2.d ∧ firstStep e d i.2.s = .ok (.inl s0)

/-- in a run of `o` the state `s` occurs at the head of the main loop -/
def AtHead (e : Env α) (o : Obj α) (d : Data α) (s : St α) : Prop := ∃ s0, Enters e o d s0 ∧ Reach e d s0 s

theorem mainLoop_reach {e : Env α} {d : Data α} {f : Nat} {s : St α} {q : RV × St α}
    (h : mainLoop e d f s = .ok (some q)) : ∃ t, Reach e d s t ∧ pass e d t = .ok (.inr q) := by
  suffices ∀ s0, Reach e d s0 s → ∃ t, Reach e d s0 t ∧ pass e d t = .ok (.inr q) from this s .start
  intro s0 hs
  induction f generalizing s with
  | zero => simp [mainLoop] at h
  | succ f ih =>
    simp only [mainLoop] at h
    cases hp : pass e d s with
    | error x => rw [hp] at h; cases h
    | ok r =>
      rw [hp] at h
      cases r with
      | inl s' => exact ih h (.pass hs hp)
      | inr q' =>
        have h : Except.ok (some q') = (Except.ok (some q) : M _) := h
        injection h with h
        injection h with h
        exact ⟨s, hs, h ▸ hp⟩

end LCQ
