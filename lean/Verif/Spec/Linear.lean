import Verif.Basic.Scalar
import Mathlib.Data.Matrix.Mul

/-!
# Specification vocabulary: arrays as vectors and matrices

`emb` embeds arrays of exact numbers into arrays of (extended) `double`s, `vec` and `mat`
read a flat array as a vector or a row-major matrix.
-/

namespace LCQ

variable {K : Type}

/-- array of finite doubles -/
def emb (l : List K) : List (Ext K) := l.map Ext.fin

/-- flat array as vector of length `n` -/
def vec [Zero K] (n : Nat) (l : List K) : Fin n → K := fun i => l.getD i 0

/-- flat row-major array as `m × n` matrix -/
def mat [Zero K] (m n : Nat) (l : List K) : Matrix (Fin m) (Fin n) K :=
  fun i j => l.getD (i * n + j) 0

end LCQ
