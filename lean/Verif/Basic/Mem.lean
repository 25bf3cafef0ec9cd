import Verif.Basic.Scalar

/-!
# Faults, arrays and loops

Undefined behaviour of C++ is the explicit outcome `Except.error fault`.
-/

namespace LCQ

/-- Kinds of undefined behaviour / abnormal termination. -/
inductive Fault where
  /-- out-of-bounds array access -/
  | oob
  /-- null pointer dereference -/
  | null
  /-- use of an indeterminate (uninitialised) value -/
  | uninit
  /-- signed integer overflow -/
  | overflow
  /-- `abort()` -/
  | abort
  /-- use of freed memory, including freeing it again -/
  | uaf
  deriving DecidableEq, Repr

/-- Result monad of all model functions. -/
abbrev M (σ : Type) := Except Fault σ

@[simp] theorem ok_bind {σ τ : Type} (a : σ) (f : σ → M τ) :
    ((Except.ok a : M σ) >>= f) = f a := rfl

@[simp] theorem error_bind {σ τ : Type} (e : Fault) (f : σ → M τ) :
    ((Except.error e : M σ) >>= f) = Except.error e := rfl

@[simp] theorem pure_eq_ok {σ : Type} (a : σ) : (pure a : M σ) = Except.ok a := rfl

@[simp] theorem map_ok {σ τ : Type} (f : σ → τ) (a : σ) :
    (f <$> (Except.ok a : M σ)) = Except.ok (f a) := rfl

theorem bind_eq_ok {σ τ : Type} {m : M σ} {f : σ → M τ} {b : τ} :
    (m >>= f) = Except.ok b ↔ ∃ a, m = Except.ok a ∧ f a = Except.ok b := by
  cases m <;> simp

/-- dereference a pointer -/
def deref {σ : Type} : Option σ → M σ
  | some a => .ok a
  | none => .error .null

@[simp] theorem deref_some {σ : Type} (a : σ) : deref (some a) = .ok a := rfl
@[simp] theorem deref_none {σ : Type} : deref (none : Option σ) = .error .null := rfl

/-- use of a possibly indeterminate scalar member -/
def initd {σ : Type} : Option σ → M σ
  | some a => .ok a
  | none => .error .uninit

@[simp] theorem initd_some {σ : Type} (a : σ) : initd (some a) = .ok a := rfl
@[simp] theorem initd_none {σ : Type} : initd (none : Option σ) = .error .uninit := rfl

/-- `b[i]` as an rvalue -/
def rd {β : Type} (b : List β) (i : Nat) : M β :=
  match b[i]? with
  | some v => .ok v
  | none => .error .oob

/-- `b[i]` as an rvalue with an `int` index -/
def rdI {β : Type} (b : List β) (i : Int) : M β :=
  if 0 ≤ i then rd b i.toNat else .error .oob

/-- `b[i] = v` -/
def wr {β : Type} (b : List β) (i : Nat) (v : β) : M (List β) :=
  if i < b.length then .ok (b.set i v) else .error .oob

/-- `b[i] = v` with an `int` index -/
def wrI {β : Type} (b : List β) (i : Int) (v : β) : M (List β) :=
  if 0 ≤ i then wr b i.toNat v else .error .oob

/-- `for (int i = 0; i < n; i++) s = f(i, s)` -/
def loop {σ : Type} : Nat → (Nat → σ → M σ) → σ → M σ
  | 0, _, s => .ok s
  | n + 1, f, s => loop n f s >>= f n

/-- `for (int i = lo; i < hi; i++) s = f(i, s)` -/
def loopI {σ : Type} (lo hi : Int) (f : Int → σ → M σ) (s : σ) : M σ :=
  loop (hi - lo).toNat (fun k => f (lo + k)) s

/-- loop with early `return`/`break`: the body gives `inl s` to continue, `inr r` to leave. -/
def loopE {σ ρ : Type} : Nat → (Nat → σ → M (σ ⊕ ρ)) → σ → M (σ ⊕ ρ)
  | 0, _, s => .ok (.inl s)
  | n + 1, f, s => do
    match ← loopE n f s with
    | .inl s' => f n s'
    | .inr r => .ok (.inr r)

/-- `memcpy(dst, src, n)` of `n` elements into a fresh array of `n` elements. -/
def copyN {β : Type} (src : List β) (n : Nat) : M (List β) :=
  if n ≤ src.length then .ok (src.take n) else .error .oob

/-- `INT_MAX` -/
def intMax : Int := 2147483647

/-- `a + b` on `int` -/
def addInt (a b : Int) : M Int :=
  if -intMax - 1 ≤ a + b ∧ a + b ≤ intMax then .ok (a + b) else .error .overflow

end LCQ
