import Verif.Model.Memory

/-!
# What a correct heap history is

Statements about a list of heap events, oldest first.
-/

namespace LCQ.Mem

/-- block `b` was allocated with kind `k` and not released -/
def Alive (tr : List HEv) (b : Nat) (k : Kind) : Prop :=
  HEv.alloc b k ∈ tr ∧ ∀ k', HEv.free b k' ∉ tr

/-- the event may follow the history: a new block is new, a block that is released is alive and of the
right kind (so no block is released twice), a block that is used is alive -/
def Allowed (tr : List HEv) : HEv → Prop
  | .alloc b _ => ∀ k, HEv.alloc b k ∉ tr
  | .free b k => Alive tr b k
  | .use b => ∃ k, Alive tr b k

/-- every event may follow the ones before it -/
def Sound (tr : List HEv) : Prop := ∀ pre ev post, tr = pre ++ ev :: post → Allowed pre ev

/-- block `b` was allocated and released -/
def Released (tr : List HEv) (b : Nat) : Prop := ∃ k, HEv.free b k ∈ tr

/-- block `b` was allocated and never released -/
def Leaked (tr : List HEv) (b : Nat) : Prop := ∃ k, Alive tr b k

end LCQ.Mem
