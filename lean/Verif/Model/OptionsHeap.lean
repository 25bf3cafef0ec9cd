import Verif.Model.Options

/-!
# Ownership of the OSQP settings in /repo/src/Options.cpp

Several `Options` objects (numbered) and the heap blocks holding their OSQP settings.  Here the
member `osqp` is an address.  A block is `some contents` while allocated and `none` after `c_free`;
blocks are never reused, so every access to freed memory is noticed.
-/

namespace LCQ
open Scalar

/-- Heap blocks of type `OSQPSettings` and the existing `Options` objects. -/
structure OptWorld (α : Type) where
  /-- blocks -/
  heap : List (Option Nat)
  /-- objects -/
  objs : Nat → Option (Options α)

namespace OptWorld
variable {α : Type} [Scalar α]

/-- `c_free(p)` for a non-null pointer -/
def free (h : List (Option Nat)) (a : Nat) : M (List (Option Nat)) :=
  match h[a]? with
  | some (some _) => .ok (h.set a none)
  | _ => .error .uaf

/-- read a settings block -/
def load (h : List (Option Nat)) (a : Nat) : M Nat :=
  match h[a]? with
  | some (some c) => .ok c
  | _ => .error .uaf

/-- the freeing part common to lines 275-279, 324-327 and 40-45 -/
def freeIf (h : List (Option Nat)) : Option Nat → M (List (Option Nat))
  | none => .ok h
  | some a => free h a

/-- `setOSQPOptions(p)` where `src` reads the contents behind `p` (`none` for the null pointer),
/repo/src/Options.cpp:275-287.  `copy_settings` allocates a block with the same contents. -/
def setOSQP (h : List (Option Nat)) (o : Options α) (src : Option (List (Option Nat) → M Nat)) :
    M (List (Option Nat) × Options α) := do
  let h ← freeIf h o.osqp
  match src with
  | none => .ok (h, { o with osqp := none })
  | some r => do
    let c ← r h
    .ok (h ++ [some c], { o with osqp := some h.length })

/-- `copy(rhs)` called on `o`, /repo/src/Options.cpp:60-77. -/
def copyFrom (h : List (Option Nat)) (o rhs : Options α) : M (List (Option Nat) × Options α) :=
  setOSQP h { rhs with osqp := o.osqp } (rhs.osqp.map fun a h => load h a)

/-- `setToDefault` on an object whose settings pointer is `p`, /repo/src/Options.cpp:296-334. -/
def toDefault (h : List (Option Nat)) (p : Option Nat) (qd sd : Nat) :
    M (List (Option Nat) × Options α) := do
  let h ← freeIf h p
  .ok (h ++ [some sd], { Options.default qd sd with osqp := some h.length })

/-- Operations of a client program. -/
inductive Op (α : Type) where
  /-- `Options x;` -/
  | new (x : Nat)
  /-- `Options x(y);` -/
  | newCopy (x y : Nat)
  /-- `x = y;` -/
  | assign (x y : Nat)
  /-- `x.setToDefault();` -/
  | reset (x : Nat)
  /-- a plain setter of `x` -/
  | set (x : Nat) (c : Options.Call α)
  /-- `x.setOSQPOptions(p)` with the client's own settings block or null -/
  | setOSQP (x : Nat) (c : Option Nat)
  /-- `x.setOSQPOptions(y.getOSQPOptions())` -/
  | setOSQPFrom (x y : Nat)
  /-- change the settings through `x.getOSQPOptions()` -/
  | poke (x : Nat) (c : Nat)
  /-- end of life of `x` -/
  | destroy (x : Nat)

/-- store object `x` -/
def upd {β : Type} (objs : Nat → Option β) (x : Nat) (o : Option β) : Nat → Option β :=
  fun y => if y = x then o else objs y

/-- execution; operations on objects in the wrong state (not existing / already existing) are
programs that do not compile and are skipped. -/
def step (qd sd : Nat) (w : OptWorld α) : Op α → M (OptWorld α)
  | .new x =>
    match w.objs x with
    | some _ => .ok w
    | none => do
      let (h, o) ← toDefault w.heap none qd sd
      .ok { heap := h, objs := upd w.objs x (some o) }
  | .newCopy x y =>
    match w.objs x, w.objs y with
    | none, some oy => do
      let (h, o) ← copyFrom w.heap { oy with osqp := none } oy
      .ok { heap := h, objs := upd w.objs x (some o) }
    | _, _ => .ok w
  | .assign x y =>
    match w.objs x, w.objs y with
    | some ox, some oy =>
      if x ≠ y then do
        let (h, o) ← copyFrom w.heap ox oy
        .ok { heap := h, objs := upd w.objs x (some o) }
      else .ok w
    | _, _ => .ok w
  | .reset x =>
    match w.objs x with
    | some ox => do
      let (h, o) ← toDefault w.heap ox.osqp qd sd
      .ok { heap := h, objs := upd w.objs x (some o) }
    | none => .ok w
  | .set x c =>
    match w.objs x with
    | some ox => .ok { w with objs := upd w.objs x (some (ox.call c).2) }
    | none => .ok w
  | .setOSQP x c =>
    match w.objs x with
    | some ox => do
      let (h, o) ← setOSQP w.heap ox (c.map fun v _ => .ok v)
      .ok { heap := h, objs := upd w.objs x (some o) }
    | none => .ok w
  | .setOSQPFrom x y =>
    match w.objs x, w.objs y with
    | some ox, some oy => do
      let (h, o) ← setOSQP w.heap ox (oy.osqp.map fun a h => load h a)
      .ok { heap := h, objs := upd w.objs x (some o) }
    | _, _ => .ok w
  | .poke x c =>
    match w.objs x with
    | some ox =>
      match ox.osqp with
      | some a => do
        let _ ← load w.heap a
        .ok { w with heap := w.heap.set a (some c) }
      | none => .ok w
    | none => .ok w
  | .destroy x =>
    match w.objs x with
    | some ox => do
      let h ← freeIf w.heap ox.osqp
      .ok { heap := h, objs := upd w.objs x none }
    | none => .ok w

/-- a client program -/
def run (qd sd : Nat) (w : OptWorld α) (ops : List (Op α)) : M (OptWorld α) :=
  ops.foldlM (step qd sd) w

/-- start: no objects, no blocks -/
def init : OptWorld α := { heap := [], objs := fun _ => none }

end OptWorld
end LCQ
