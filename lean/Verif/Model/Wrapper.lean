import Verif.Model.Memory

/-!
# Who allocates and who frees: the Python class for sparse matrices

`cscWrapper` of /repo/interfaces/python/lcqpow/LCQProblem.cpp:22-55 keeps three arrays of its own and a pointer to a
struct that is allocated by `createCSC` (/repo/src/Utilities.cpp:469-484) and points to these arrays.  As in
`Verif.Model.Memory` only allocation, release and use of blocks remain of the code.

A Python program creates objects, lets them go (the destructor runs when the last reference to an object is gone) and
hands them to `loadLCQP`.  Objects are numbered in the order of their creation.

Simplifications: allocation never fails; an empty `Eigen::VectorXd` or `std::vector` has no block; what the problem object
itself allocates is not recorded here (see `Verif.Model.Memory`, where the load only copies from its arguments); the
objects made by `pybind11` when it converts the arguments of the constructor are left out; the default value `cscWrapper()` of
the parameter `A` has no blocks at all.
-/

namespace LCQ.Wrap
open Mem

/-- Heap and wrapper objects. -/
structure World where
  /-- events so far -/
  tr : List HEv
  /-- the members `x_.data()`, `i_.data()`, `p_.data()` and `csc_` of object `k` -/
  ptr : Nat → Part → Option Nat
  /-- the members `x`, `i`, `p` of the struct of object `k` -/
  tgt : Nat → Part → Option Nat
  /-- next block number -/
  next : Nat
  /-- next object number -/
  count : Nat

/-- no object yet -/
def World.empty : World := { tr := [], ptr := fun _ _ => none, tgt := fun _ _ => none, next := 0, count := 0 }

/-- the allocator of a member: `Eigen` and `createCSC` use `malloc`, `std::vector` uses `operator new` -/
def kind : Part → Kind
  | .x => .c
  | .s => .c
  | .i => .obj
  | .p => .obj

/-- change of one member -/
def World.set (w : World) (k : Nat) (q : Part) (v : Option Nat) : World :=
  { w with ptr := Function.update w.ptr k (Function.update (w.ptr k) q v) }

/-- allocation for a member; nothing for an array of length 0 -/
def World.new (w : World) (k : Nat) (q : Part) (len : Nat) : World :=
  if len = 0 then w else { w.set k q (some w.next) with tr := w.tr ++ [.alloc w.next (kind q)], next := w.next + 1 }

/-- release of what a member points to, `free(nullptr)` does nothing; the member does not exist any more -/
def World.del (w : World) (k : Nat) (q : Part) : World :=
  match w.ptr k q with
  | none => w
  | some b => { w.set k q none with tr := w.tr ++ [.free b (kind q)] }

/-- access to a block through a pointer -/
def World.use (w : World) (v : Option Nat) : World :=
  match v with
  | none => w
  | some b => { w with tr := w.tr ++ [.use b] }

/-- the constructor, 24-30: copies of the three arrays, then the struct, which points to the copies -/
def World.make (w : World) (nx ni np : Nat) : World :=
  let k := w.count
  let w1 := (((w.new k .x nx).new k .i ni).new k .p np).new k .s 1
  let w2 := w1.use (w1.ptr k .s)
  { w2 with tgt := Function.update w2.tgt k (w2.ptr k), count := k + 1 }

/-- the body of the destructor, 36-41: the struct is released only if the pointer to it is null, that is, never -/
def World.body (w : World) (k : Nat) : World :=
  if (w.ptr k .s).isNone then w.del k .s else w

/-- the end of an object: the body of the destructor, then the members are destroyed, last declared first -/
def World.drop (w : World) (k : Nat) : World :=
  ((((w.body k).set k .s none).del k .p).del k .i).del k .x

/-- `copyCSC` of an argument of `loadLCQP`: the struct is read, then the arrays it points to; nothing happens for a null pointer -/
def World.read (w : World) (k : Nat) : World :=
  match w.ptr k .s with
  | none => w
  | some b => (((w.use (some b)).use (w.tgt k .p)).use (w.tgt k .i)).use (w.tgt k .x)

/-- What a Python program can do with the class. -/
inductive Cmd where
  /-- `cscWrapper(m, n, nnx, x, i, p)` with the lengths of the arrays -/
  | make (nx ni np : Nat)
  /-- the last reference to object `k` goes away -/
  | drop (k : Nat)
  /-- `loadLCQP(Q, g, L, R, ..., A)` with matrices -/
  | load (Q L R : Nat) (A : Option Nat)

/-- execution -/
def World.exec (w : World) : Cmd → World
  | .make nx ni np => w.make nx ni np
  | .drop k => w.drop k
  | .load Q L R A =>
    let w1 := ((w.read Q).read L).read R
    match A with
    | none => w1
    | some k => w1.read k

/-- a program -/
def session (cs : List Cmd) : World := cs.foldl World.exec World.empty

/-- The copy constructor that C++ generates, for comparison: the arrays are copied, the pointer to the struct is shared.  It
is not available in Python. -/
def World.copy (w : World) (k nx ni np : Nat) : World :=
  let l := w.count
  let w1 := ((w.new l .x nx).new l .i ni).new l .p np
  let w2 := w1.set l .s (w1.ptr k .s)
  { w2 with tgt := Function.update w2.tgt l (w2.tgt k), count := l + 1 }

end LCQ.Wrap
